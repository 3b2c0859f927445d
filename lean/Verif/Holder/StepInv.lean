import Verif.Holder.Inv
/-!
# Every call keeps what is stored in agreement with what happened
-/
namespace Verif.Holder
open Verif HProg

section
variable {e : HEnv} {L : List Entry} {s : String → Option HVal} {d d' : Nat} {en : Entry} {P : Provider} {w w' : HWorld} {r : HRes Resp}

/-- A last write that took effect although the call may have been told otherwise. -/
def Took (e : HEnv) (b : Resp) (en : Entry) : Prop := en.result = .ok b ∨ en.result = .error .store ∧ ∃ n, e.fault n = .failAfter

theorem Took.nolate {b : Resp} (h : Took e b en) (hl : e.NoLate) : en.result = .ok b := by
  rcases h with h | ⟨_, n, hn⟩
  · exact h
  · exact absurd hn (hl n)

theorem Took.either {b : Resp} (h : Took e b en) : en.result = .error .store ∨ ∃ resp, en.result = .ok resp := by
  rcases h with h | ⟨h, _⟩
  · exact .inr ⟨_, h⟩
  · exact .inl h

theorem Inv.ends (h : Inv e L s d) (hd : d ≤ d') {k : String} {v : Option HVal} {b : Resp} {ws : List Write} (hk : ∃ n, n < d' ∧ k = e.rng n)
    (hE : Ends e (k, v) b en.result ws) (hq : Quiet en) (hn : ∀ x, Names en x → x = k)
    (hv : Took e b en → ∀ y, v = some y → ValInv e (L ++ [en]) k y) : Inv e (L ++ [en]) (applyWrites s ws) d' := by
  generalize hr : en.result = q at hE
  have put : Took e b en → Inv e (L ++ [en]) (upd s k v) d' := by
    intro ht
    cases v with
    | none => exact h.drop hd hk hn hq
    | some y => exact h.put hd hk hn (hv ht y rfl) hq
  cases hE with
  | done => exact put (.inl hr)
  | lost => exact h.keep hd (names_error hr) hq
  | late hl => exact put (.inr ⟨hr, hl⟩)

theorem offer_inv (hf : e.Fresh) (hI : Inv e w.log w.store w.drawn) {req : OfferRequest} (now : Int) (h : (offer req).run e w = (r, w'))
    (hrec : w.recent = []) : Inv e (w.log ++ [⟨P, now, .offer req, r, w'.recent⟩]) w'.store w'.drawn := by
  obtain ⟨evs, ws, hE, h1⟩ := offer_did h
  have hrc : w'.recent = evs := by rw [hE.recent, hrec]; rfl
  rw [hrc, hE.store]
  rcases h1 with ⟨hfail, rfl, hev⟩ | ⟨md, sv, hd, rfl, h2⟩
  · refine hI.keep hE.drawn (names_fails hfail) ?_
    intro ev h n
    rcases hev ev h with h | h <;> rw [h] <;> simp
  · have hq : Quiet ⟨P, now, .offer req, r, [⟨.metadata req.offer.credentialIssuer, some md⟩, ⟨.oauthServer req.offer.credentialIssuer, some sv⟩]⟩ := by
      intro ev h n; simp at h; rcases h with rfl | rfl <;> simp
    rcases h2 with ⟨rfl, rfl⟩ | ⟨rfl, h3⟩
    · exact hI.keep hE.drawn (names_error rfl) hq
    · have hok : ∀ resp, r = .ok resp → ∃ iss cs g, resp = .offer (e.rng w.drawn) iss cs g := by
        intro resp hr
        rcases h3 with ⟨h3, _⟩ | ⟨h3, _⟩ | ⟨o, _, h3⟩
        · rw [h3] at hr; cases hr
        · rw [hr] at h3; exact absurd rfl h3.ne_ok
        · rw [h3] at hr; cases hr; exact ⟨_, _, _, rfl⟩
      refine hI.put hE.drawn ⟨w.drawn, by omega, rfl⟩ ?_ ?_ hq
      · rintro x ⟨resp, hr, hx⟩
        obtain ⟨iss, cs, g, rfl⟩ := hok resp hr
        rcases hx with ⟨a, ha, _⟩ | ⟨a, ha, _⟩ | ⟨a, ha, _⟩ | ⟨a, b, c, ha⟩ | ⟨a, b, ha⟩ <;> cases ha
        rfl
      · refine FlowInv.new hf hI (Nat.le_refl _) rfl rfl ?_ rfl rfl ?_ (.inl ⟨req, rfl⟩)
        · exact ⟨rfl, rfl, InOrder.one ⟨⟨req, rfl, rfl⟩, List.mem_cons_self .., hok⟩⟩
        · intro r' a b c hr' _; cases hr'; exact ⟨rfl, rfl⟩

/-- Names of an entry for an endpoint on an existing flow. -/
theorem names_accept {P : Provider} {now : Int} {req : AcceptRequest} {r : HRes Resp} {evs : List Event} {x k : String}
    (hr : ∀ resp, r = .ok resp → resp = .flow k) (h : Names ⟨P, now, .accept req, r, evs⟩ x) : x = req.issuanceId := by
  obtain ⟨resp, hres, hx⟩ := h
  rcases hx with ⟨a, ha, hk⟩ | ⟨a, ha, _⟩ | ⟨a, ha, _⟩ | ⟨a, b, c, rfl⟩ | ⟨a, b, rfl⟩
  · cases ha; exact hk.symm
  · cases ha
  · cases ha
  · have := hr _ hres; cases this
  · have := hr _ hres; cases this

theorem Ends.result {x : Write} {b : Resp} {ws : List Write} (h : Ends e x b r ws) : ∀ resp, r = .ok resp → resp = b := by
  intro resp hr
  cases h with
  | done => cases hr; rfl
  | lost => cases hr
  | late _ => cases hr

/-- A flow changed by a call that is none of offer, credentials and deferred. -/
theorem FlowInv.carry {k : String} {i i' : Issuance} (h : FlowInv e L k i) (hid : i'.id = k) (hnote : i'.notificationId = none) (hoff : i'.offer = i.offer)
    (hcr : i'.credentials = i.credentials) (hdf : i'.deferred = i.deferred) (hph : Phase (L ++ [en]) k i')
    (hacc : i'.status ≠ .tokenReceived → ∀ x ∈ L ++ [en], ∀ r resp, x.req = .accept r → r.issuanceId = k → x.result = .ok resp →
      i'.status ≠ .ready ∧ Narrowed r.accept i'.accepted)
    (hr : receivedBy k en = []) (ho : ∀ ts, outstandingStep k ts en = ts) (hno : ∀ r, en.req ≠ .offer r) (hcl : i'.clientId = i.clientId) :
    FlowInv e (L ++ [en]) k i' := by
  refine ⟨hid, hnote, hph, ?_, hacc, ?_, ?_, ?_, ?_⟩
  · intro x hx r' a b c h1 h2
    rw [hoff]
    rcases List.mem_append.mp hx with hx | hx
    · exact h.offered x hx r' a b c h1 h2
    · simp at hx; subst hx; exact absurd h1 (hno _)
  · intro hl
    rw [received_append, hcr, h.received hl]
    simp [Holder.received, hr]
  · intro c hc
    rw [hcr] at hc
    obtain ⟨x, hx, hcame⟩ := h.came c hc
    exact ⟨x, List.mem_append_left _ hx, hcame⟩
  · intro hl t
    rw [outstanding_snoc, ho, hdf, h.outstanding hl]
  · intro x hx r' a b c h1 h2
    rw [hcl]
    rcases List.mem_append.mp hx with hx | hx
    · exact h.client x hx r' a b c h1 h2
    · simp at hx; subst hx; exact absurd h1 (hno _)

theorem accept_inv (hI : Inv e w.log w.store w.drawn) {req : AcceptRequest} (now : Int) (h : (accept req).run e w = (r, w'))
    (hrec : w.recent = []) : Inv e (w.log ++ [⟨P, now, .accept req, r, w'.recent⟩]) w'.store w'.drawn := by
  obtain ⟨ws, hE, hd, h1⟩ := accept_did h
  have hrc : w'.recent = [] := by rw [hE.recent, hrec]; rfl
  rw [hrc, hE.store]
  have hq : Quiet ⟨P, now, .accept req, r, []⟩ := by intro ev h; simp at h
  rcases h1 with ⟨hfail, rfl⟩ | ⟨i, acc, hi, hs, hne, hacc, hends⟩
  · exact hI.keep hE.drawn (names_fails hfail) hq
  · have hv : FlowInv e w.log req.issuanceId i := hI.val _ _ hi
    simp only [hv.id] at hends
    obtain ⟨n, hn, hk⟩ := hI.key _ _ hi
    refine hI.ends hE.drawn ⟨n, by omega, hk⟩ hends hq (fun x hx => names_accept hends.result hx) ?_
    intro ht y hy
    cases hy
    have hnar := narrowScope_narrowed hacc
    have hph : i.scope = none ∧ i.pin = none ∧ InOrder [IsOffer req.issuanceId i.offer i.issuer] w.log := by
      have := hv.phase; simp only [Phase, hs] at this; exact this
    have hacc' : InOrder ([IsOffer req.issuanceId i.offer i.issuer] ++ [IsAccept req.issuanceId acc]) (w.log ++ [⟨P, now, .accept req, r, []⟩]) :=
      hph.2.2.snoc ⟨⟨req, rfl, rfl, hnar⟩, ht.either⟩
    refine hv.carry rfl hv.note rfl rfl rfl ?_ ?_ rfl (fun _ => rfl) (by simp) rfl
    · cases hp : needsPin i.offer with
      | true =>
        have hreq := (needsPin_iff _).mp hp
        simp only [Phase, if_true]
        exact ⟨hph.1, hreq, hacc'⟩
      | false =>
        have hreq : ¬ RequiresTxCode i.offer := fun h => by rw [(needsPin_iff _).mpr h] at hp; cases hp
        simp only [Phase, Bool.false_eq_true, if_false]
        exact ⟨hph.1, .inl ⟨hreq, hph.2.1, hacc'⟩⟩
    · intro _ x hx r' resp h1 h2 h3
      refine ⟨by simp only; split <;> simp, ?_⟩
      rcases List.mem_append.mp hx with hx | hx
      · have := (hv.accepted (by rw [hs]; simp) x hx r' resp h1 h2 h3).1
        exact absurd hs this
      · simp at hx; subst hx; cases h1; exact hnar

theorem names_none {P : Provider} {now : Int} {req : Req} {evs : List Event} {x : String}
    (h1 : ∀ a, req ≠ .accept a) (h2 : ∀ a, req ≠ .credentials a) (h3 : ∀ a, req ≠ .deferred a)
    (hr : ∀ resp, r = .ok resp → (∀ k a b c, resp ≠ .offer k a b c) ∧ ∀ k a b, resp ≠ .request k a b) : ¬ Names ⟨P, now, req, r, evs⟩ x := by
  rintro ⟨resp, hres, hx⟩
  rcases hx with ⟨a, ha, hk⟩ | ⟨a, ha, _⟩ | ⟨a, ha, _⟩ | ⟨a, b, c, ha⟩ | ⟨a, b, ha⟩
  · exact h1 a ha
  · exact h2 a ha
  · exact h3 a ha
  · exact (hr _ hres).1 _ _ _ _ ha
  · exact (hr _ hres).2 _ _ _ ha

/-- Accept calls so far, when the new entry is not one. -/
theorem FlowInv.accepts {k : String} {i : Issuance} (h : FlowInv e L k i) (hs : i.status ≠ .tokenReceived) (hna : ∀ a, en.req ≠ .accept a) :
    ∀ x ∈ L ++ [en], ∀ r resp, x.req = .accept r → r.issuanceId = k → x.result = .ok resp → i.status ≠ .ready ∧ Narrowed r.accept i.accepted := by
  intro x hx r resp h1 h2 h3
  rcases List.mem_append.mp hx with hx | hx
  · exact h.accepted hs x hx r resp h1 h2 h3
  · simp at hx; subst hx; exact absurd h1 (hna _)

theorem pin_inv (hI : Inv e w.log w.store w.drawn) {req : PinRequest} (now : Int) (h : (pin req).run e w = (r, w'))
    (hrec : w.recent = []) : Inv e (w.log ++ [⟨P, now, .pin req, r, w'.recent⟩]) w'.store w'.drawn := by
  obtain ⟨ws, hE, hd, h1⟩ := pin_did h
  have hrc : w'.recent = [] := by rw [hE.recent, hrec]; rfl
  rw [hrc, hE.store]
  have hq : Quiet ⟨P, now, .pin req, r, []⟩ := by intro ev h; simp at h
  rcases h1 with ⟨hfail, rfl⟩ | ⟨i, hi, hs, hends⟩
  · exact hI.keep hE.drawn (names_fails hfail) hq
  · have hv : FlowInv e w.log req.issuanceId i := hI.val _ _ hi
    simp only [hv.id] at hends
    obtain ⟨n, hn, hk⟩ := hI.key _ _ hi
    refine hI.ends hE.drawn ⟨n, by omega, hk⟩ hends hq (fun x hx => absurd hx (names_none (by simp) (by simp) (by simp) ?_)) ?_
    · intro resp hr; rw [hends.result resp hr]; simp
    intro ht y hy
    cases hy
    have hph : i.scope = none ∧ RequiresTxCode i.offer ∧ InOrder [IsOffer req.issuanceId i.offer i.issuer, IsAccept req.issuanceId i.accepted] w.log := by
      have := hv.phase; simp only [Phase, hs] at this; exact this
    refine hv.carry rfl hv.note rfl rfl rfl ?_ ?_ rfl (fun _ => rfl) (by simp) rfl
    · simp only [Phase]
      exact ⟨hph.1, .inr ⟨hph.2.1, req.pin, rfl, hph.2.2.snoc ⟨rfl, ht.either⟩⟩⟩
    · intro _ x hx r' resp h1 h2 h3
      exact ⟨by simp, (hv.accepts (by rw [hs]; simp) (by simp) x hx r' resp h1 h2 h3).2⟩

theorem token_inv (hI : Inv e w.log w.store w.drawn) {id : String} (now : Int) (h : (token id).run e w = (r, w'))
    (hrec : w.recent = []) : Inv e (w.log ++ [⟨P, now, .token id, r, w'.recent⟩]) w'.store w'.drawn := by
  obtain ⟨evs, ws, hE, hd, h1⟩ := token_did h
  have hrc : w'.recent = evs := by rw [hE.recent, hrec]; rfl
  rw [hrc, hE.store]
  rcases h1 with ⟨hfail, rfl, rfl⟩ | ⟨i, p, hi, hs, hp, q, hq', h1⟩
  · exact hI.keep hE.drawn (names_fails hfail) (by intro ev h; simp at h)
  · have hv : FlowInv e w.log id i := hI.val _ _ hi
    obtain ⟨n, hn, hk⟩ := hI.key _ _ hi
    rcases h1 with ⟨hfail, rfl, o, rfl⟩ | ⟨t, a, rfl, ha, hends⟩
    · exact hI.keep hE.drawn (names_fails hfail) (by intro ev h n; simp at h; subst h; simp)
    · simp only [hv.id] at hends
      refine hI.ends hE.drawn ⟨n, by omega, hk⟩ hends (by intro ev h n; simp at h; subst h; simp)
        (fun x hx => absurd hx (names_none (by simp) (by simp) (by simp) ?_)) ?_
      · intro resp hr; rw [hends.result resp hr]; simp
      intro ht y hy
      cases hy
      refine hv.carry rfl hv.note rfl rfl rfl ?_ (by intro h; simp at h) rfl (fun _ => rfl) (by simp) rfl
      simp only [Phase]
      have hsc : i.scope = none := by have := hv.phase; simp only [Phase, hs] at this; exact this.1
      exact ⟨t, rfl, rfl, InOrder.one ⟨⟨q, by simp⟩, .inl ⟨rfl, hsc⟩⟩⟩

theorem authorizationRequest_state {i : Issuance} {req : AuthorizeRequest} {q : Issuer.RequestObject} (h : authorizationRequest i req = .ok q) :
    q.state = some i.id := by
  unfold authorizationRequest at h
  cases h1 : need i.codeChallenge "missing code challenge" with
  | error x => rw [h1] at h; cases h
  | ok a =>
    rw [h1] at h
    cases h2 : requestDetails i req with
    | error x => rw [h2] at h; cases h
    | ok b =>
      rw [h2] at h
      cases h3 : need i.server.codeChallengeMethodsSupported "code challenge methods missing from authorization server metadata" with
      | error x => rw [h3] at h; cases h
      | ok c =>
        rw [h3] at h
        cases h4 : first i.server.responseTypesSupported with
        | error x => rw [h4] at h; cases h
        | ok d =>
          rw [h4] at h
          cases h5 : first c with
          | error x => simp only [Bind.bind, Except.bind, h5] at h; cases h
          | ok f =>
            simp only [Bind.bind, Except.bind, h5, Pure.pure, Except.pure, Except.ok.injEq] at h
            rw [← h]

theorem authorize_inv (hf : e.Fresh) (hI : Inv e w.log w.store w.drawn) {req : AuthorizeRequest} (now : Int) (h : (authorize P req).run e w = (r, w'))
    (hrec : w.recent = []) : Inv e (w.log ++ [⟨P, now, .authorize req, r, w'.recent⟩]) w'.store w'.drawn := by
  obtain ⟨evs, ws, hE, h1⟩ := authorize_did h
  have hrc : w'.recent = evs := by rw [hE.recent, hrec]; rfl
  rw [hrc, hE.store]
  rcases h1 with ⟨hfail, rfl, hpre⟩ | ⟨i, pre, n, hst, hpre, hdr, q, hq, h1⟩
  · exact hI.keep hE.drawn (names_fails hfail) hpre.quiet
  rcases h1 with ⟨hfail, rfl, rfl⟩ | ⟨a, h1⟩
  · refine hI.keep hE.drawn (names_fails hfail) ?_
    intro ev hev m
    rcases List.mem_append.mp hev with h | h
    · exact hpre.quiet ev h m
    · simp at h; subst h; simp
  have hquiet : ∀ o, ∀ ev ∈ pre ++ [⟨.authorization q, some a⟩, ⟨.token (codeTokenRequest (authorizing P (e.rng n) i req) req a), o⟩],
      ∀ n, ev.call ≠ .notification n := by
    intro o ev hev m
    rcases List.mem_append.mp hev with h | h
    · exact hpre.quiet ev h m
    · simp at h; rcases h with rfl | rfl <;> simp
  rcases h1 with ⟨o, hfail, rfl, rfl⟩ | ⟨t, m, rfl, hm, hends⟩
  · exact hI.keep hE.drawn (names_fails hfail) (hquiet _)
  have hstate := authorizationRequest_state hq
  have hnames : ∀ x, ¬ Names ⟨P, now, .authorize req, r,
      pre ++ [⟨.authorization q, some a⟩, ⟨.token (codeTokenRequest (authorizing P (e.rng n) i req) req a), some t⟩]⟩ x :=
    fun x => names_none (by simp) (by simp) (by simp) (by intro resp hr; rw [hends.result resp hr]; simp)
  cases hst with
  | stored hr hs ha =>
    rename_i id
    have hv : FlowInv e w.log id i := hI.val _ _ hs
    obtain ⟨n, hn, hk⟩ := hI.key _ _ hs
    simp only [hv.id] at hends
    refine hI.ends hE.drawn ⟨n, by omega, hk⟩ hends (hquiet _) (fun x hx => absurd hx (hnames x)) ?_
    intro ht y hy
    cases hy
    refine hv.carry hv.id hv.note rfl rfl rfl ?_ (by intro h; simp at h) rfl (fun _ => rfl) (by simp) rfl
    simp only [Phase]
    have hsc : i.scope = none := by have := hv.phase; simp only [Phase, ha] at this; exact this.1
    exact ⟨t, rfl, rfl, InOrder.one ⟨⟨_, List.mem_append_right _ (List.mem_cons_of_mem _ (List.mem_singleton.mpr rfl))⟩, .inr ⟨req, rfl, .inl ⟨hr, hsc⟩⟩⟩⟩
  | new hr hx =>
    rename_i c iss sc sub md sv
    refine hI.ends hE.drawn ⟨w.drawn, by omega, rfl⟩ hends (hquiet _) (fun x hx => absurd hx (hnames x)) ?_
    intro ht y hy
    cases hy
    refine FlowInv.new hf hI (Nat.le_refl _) rfl rfl ?_ rfl rfl (by simp) (.inr ⟨req, rfl⟩)
    simp only [Phase]
    exact ⟨t, rfl, rfl, InOrder.one ⟨⟨_, List.mem_append_right _ (List.mem_cons_of_mem _ (List.mem_singleton.mpr rfl))⟩, .inr ⟨req, rfl, .inr ⟨q, some a, c, iss, sub, hr, by simp, hstate⟩⟩⟩⟩

theorem credentials_inv (hI : Inv e w.log w.store w.drawn) {req : CredentialsRequest} (now : Int) (h : (credentials P req).run e w = (r, w'))
    (hrec : w.recent = []) : Inv e (w.log ++ [⟨P, now, .credentials req, r, w'.recent⟩]) w'.store w'.drawn := by
  obtain ⟨evs, ws, hE, h1⟩ := credentials_did h
  have hrc : w'.recent = evs := by rw [hE.recent, hrec]; rfl
  rw [hrc, hE.store]
  rcases h1 with ⟨hfail, rfl, rfl⟩ | ⟨i, jwt, hi, hs, hj, hr, -, h1⟩
  · exact hI.keep hE.drawn (names_fails hfail) (by intro ev h; simp at h)
  have hv : FlowInv e w.log req.issuanceId i := hI.val _ _ hi
  obtain ⟨n, hn, hk⟩ := hI.key _ _ hi
  rcases h1 with ⟨hfail, rfl⟩ | ⟨j, hg, -, hends⟩
  · exact hI.keep hE.drawn (names_fails hfail) hr.quiet
  obtain ⟨creds, defs, nonce, exp, rfl, htok, hver, hkeys⟩ := hg.same
  simp only [hv.id] at hends
  have hdr := hE.drawn
  refine hI.ends hE.drawn ⟨n, by omega, hk⟩ hends hr.quiet ?_ ?_
  · rintro x ⟨resp, hres, hx⟩
    have hres := hends.result resp hres
    subst hres
    rcases hx with ⟨a, ha, hk⟩ | ⟨a, ha, hk⟩ | ⟨a, ha, _⟩ | ⟨a, b, c, ha⟩ | ⟨a, b, ha⟩ <;> cases ha
    exact hk.symm
  · intro ht y hy
    cases hy
    have hph : ∃ t, t.accessToken = i.token.accessToken ∧ t.authorizationDetails = i.token.authorizationDetails ∧ InOrder [IsToken req.issuanceId i.scope t] w.log := by
      have := hv.phase; simp only [Phase, hs] at this; exact this
    refine ⟨rfl, hv.note, ?_, ?_, by intro h; exact absurd hs h, ?_, ?_, ?_, ?_⟩
    · obtain ⟨t, h1, h2, h3⟩ := hph
      simp only [Phase, hs]; exact ⟨t, h1, h2, h3.append _⟩
    · intro x hx r' a b c h1 h2
      rcases List.mem_append.mp hx with hx | hx
      · exact hv.offered x hx r' a b c h1 h2
      · simp at hx; subst hx; cases h1
    · intro hl
      have hres := ht.nolate hl
      simp only at hres
      rw [received_append, ← hv.received hl]
      simp [Holder.received, receivedBy, hres, htok]
    · intro c hc
      rcases List.mem_append.mp hc with hc | hc
      · obtain ⟨x, hx, hcame⟩ := hv.came c hc
        exact ⟨x, List.mem_append_left _ hx, hcame⟩
      · refine ⟨_, List.mem_append_right _ (List.mem_singleton.mpr rfl), .inl ⟨req, rfl, rfl⟩, ?_, hver c hc⟩
        simp only [← htok]
        exact List.mem_map.mpr ⟨c, hc, rfl⟩
    · intro hl t
      have hres := ht.nolate hl
      simp only at hres
      rw [outstanding_snoc]
      simp only [outstandingStep, hres, if_true, List.mem_append, hkeys, hv.outstanding hl]
    · intro x hx r' a b c h1 h2
      rcases List.mem_append.mp hx with hx | hx
      · exact hv.client x hx r' a b c h1 h2
      · simp at hx; subst hx; cases h1

theorem keys_remove {α : Type} (m : Dict α) (k t : String) : t ∈ Dict.keys (remove m k) ↔ t ∈ Dict.keys m ∧ t ≠ k := by
  simp only [Dict.keys, remove, List.mem_map, List.mem_filter, bne_iff_ne, ne_eq]
  constructor
  · rintro ⟨x, ⟨h1, h2⟩, rfl⟩; exact ⟨⟨x, h1, rfl⟩, h2⟩
  · rintro ⟨⟨x, h1, rfl⟩, h2⟩; exact ⟨x, ⟨h1, h2⟩, rfl⟩

theorem deferred_inv (hI : Inv e w.log w.store w.drawn) {req : DeferredRequest} (now : Int) (h : (deferred P req).run e w = (r, w'))
    (hrec : w.recent = []) : Inv e (w.log ++ [⟨P, now, .deferred req, r, w'.recent⟩]) w'.store w'.drawn := by
  obtain ⟨evs, ws, hE, h1⟩ := deferred_did h
  have hrc : w'.recent = evs := by rw [hE.recent, hrec]; rfl
  rw [hrc, hE.store]
  rcases h1 with ⟨hfail, rfl, rfl⟩ | ⟨i, o, logos, hi, hs, hlog, hevs, h1⟩
  · exact hI.keep hE.drawn (names_fails hfail) (by intro ev h; simp at h)
  have hv : FlowInv e w.log req.issuanceId i := hI.val _ _ hi
  obtain ⟨n, hn, hk⟩ := hI.key _ _ hi
  have hquiet : ∀ ev ∈ evs, ∀ n, ev.call ≠ .notification n := by
    subst hevs
    intro ev hev m
    rcases List.mem_cons.mp hev with h | h
    · subst h; simp
    · exact hlog.quiet ev h m
  rcases h1 with ⟨hfail, rfl⟩ | ⟨j, hg, -, hends⟩
  · exact hI.keep hE.drawn (names_fails hfail) hquiet
  have hdr := hE.drawn
  obtain ⟨creds, defs, nonce, exp, rfl, htok, hver, hkeys⟩ := hg.same
  simp only [hv.id] at hends
  refine hI.ends hE.drawn ⟨n, by omega, hk⟩ hends hquiet ?_ ?_
  · rintro x ⟨resp, hres, hx⟩
    have hres := hends.result resp hres
    subst hres
    rcases hx with ⟨a, ha, hk⟩ | ⟨a, ha, hk⟩ | ⟨a, ha, hk⟩ | ⟨a, b, c, ha⟩ | ⟨a, b, ha⟩ <;> cases ha
    exact hk.symm
  · intro ht y hy
    unfold stashed at hy
    split at hy
    · cases hy
    cases hy
    have hph : ∃ t, t.accessToken = i.token.accessToken ∧ t.authorizationDetails = i.token.authorizationDetails ∧ InOrder [IsToken req.issuanceId i.scope t] w.log := by
      have := hv.phase; simp only [Phase, hs] at this; exact this
    refine ⟨rfl, hv.note, ?_, ?_, by intro h; exact absurd hs h, ?_, ?_, ?_, ?_⟩
    · obtain ⟨t, h1, h2, h3⟩ := hph
      simp only [Phase, hs]; exact ⟨t, h1, h2, h3.append _⟩
    · intro x hx r' a b c h1 h2
      rcases List.mem_append.mp hx with hx | hx
      · exact hv.offered x hx r' a b c h1 h2
      · simp at hx; subst hx; cases h1
    · intro hl
      have hres := ht.nolate hl
      simp only at hres
      rw [received_append, ← hv.received hl]
      simp [Holder.received, receivedBy, hres, htok]
    · intro c hc
      rcases List.mem_append.mp hc with hc | hc
      · obtain ⟨x, hx, hcame⟩ := hv.came c hc
        exact ⟨x, List.mem_append_left _ hx, hcame⟩
      · refine ⟨_, List.mem_append_right _ (List.mem_singleton.mpr rfl), .inr ⟨req, rfl, rfl⟩, ?_, hver c hc⟩
        simp only [← htok]
        exact List.mem_map.mpr ⟨c, hc, rfl⟩
    · intro hl t
      have hres := ht.nolate hl
      simp only at hres
      rw [outstanding_snoc]
      simp only [outstandingStep, hres, if_true, List.mem_append, hkeys, keys_remove, hv.outstanding hl, List.mem_filter, bne_iff_ne, ne_eq]
    · intro x hx r' a b c h1 h2
      rcases List.mem_append.mp hx with hx | hx
      · exact hv.client x hx r' a b c h1 h2
      · simp at hx; subst hx; cases h1

theorem Inv.noNote (hI : Inv e L s d) (id : String) : ∀ i, s id = some (.issuance i) → i.notificationId = none :=
  fun i hi => (show FlowInv e L id i from hI.val _ _ hi).note

theorem save_inv (hI : Inv e w.log w.store w.drawn) {id : String} (now : Int) (h : (save id).run e w = (r, w'))
    (hrec : w.recent = []) : Inv e (w.log ++ [⟨P, now, .save id, r, w'.recent⟩]) w'.store w'.drawn := by
  obtain ⟨evs, ws, hE, hd, h1⟩ := save_did (hI.noNote id) h
  have hrc : w'.recent = evs := by rw [hE.recent, hrec]; rfl
  rw [hrc, hE.store]
  have hsv : ∀ l : List Credential, ∀ ev ∈ savesOf l, ∀ n, ev.call ≠ .notification n := by
    intro l ev hev n
    obtain ⟨c, _, rfl⟩ := List.mem_map.mp hev
    simp
  rcases h1 with ⟨hfail, rfl, rfl⟩ | ⟨i, hi, h1⟩
  · exact hI.keep hE.drawn (names_fails hfail) (by intro ev h; simp at h)
  obtain ⟨n, hn, hk⟩ := hI.key _ _ hi
  rcases h1 with ⟨done, c, rest, hfail, rfl, hl, rfl⟩ | ⟨rfl, h1⟩
  · refine hI.keep hE.drawn (names_fails hfail) ?_
    intro ev hev m
    rcases List.mem_append.mp hev with h | h
    · exact hsv _ ev h m
    · simp at h; subst h; simp
  rcases h1 with ⟨_, hends⟩ | ⟨_, rfl, rfl⟩
  · refine hI.ends hE.drawn ⟨n, by omega, hk⟩ hends (hsv _) (fun x hx => absurd hx (names_none (by simp) (by simp) (by simp) ?_)) (by simp)
    intro resp hr; rw [hends.result resp hr]; simp
  · exact hI.keep hE.drawn (fun x => names_none (by simp) (by simp) (by simp) (by simp)) (hsv _)

theorem cancel_inv (hI : Inv e w.log w.store w.drawn) {id : String} (now : Int) (h : (cancel id).run e w = (r, w'))
    (hrec : w.recent = []) : Inv e (w.log ++ [⟨P, now, .cancel id, r, w'.recent⟩]) w'.store w'.drawn := by
  obtain ⟨ws, hE, hd, h1⟩ := cancel_did (hI.noNote id) h
  have hrc : w'.recent = [] := by rw [hE.recent, hrec]; rfl
  rw [hrc, hE.store]
  have hq : Quiet ⟨P, now, .cancel id, r, []⟩ := by intro ev h; simp at h
  rcases h1 with ⟨hfail, rfl⟩ | ⟨i, hi, hends⟩
  · exact hI.keep hE.drawn (names_fails hfail) hq
  obtain ⟨n, hn, hk⟩ := hI.key _ _ hi
  refine hI.ends hE.drawn ⟨n, by omega, hk⟩ hends hq (fun x hx => absurd hx (names_none (by simp) (by simp) (by simp) ?_)) (by simp)
  intro resp hr; rw [hends.result resp hr]; simp

theorem buildFilter_ok {q : Verifier.RequestObject} {f : Dif.Constraints} (h : buildFilter q = .ok f) :
    ∃ pd d ds, q.presentationDefinition = .object pd ∧ pd.inputDescriptors = d :: ds ∧ f = d.constraints := by
  unfold buildFilter at h
  split at h
  · cases h
  · rename_i pd hpd
    split at h
    · cases h
    · rename_i d ds hd
      cases h
      exact ⟨pd, d, ds, hpd, hd, rfl⟩

theorem request_inv (hf : e.Fresh) (hI : Inv e w.log w.store w.drawn) {url : String} (now : Int) (h : (request P url).run e w = (r, w'))
    (hrec : w.recent = []) : Inv e (w.log ++ [⟨P, now, .request url, r, w'.recent⟩]) w'.store w'.drawn := by
  obtain ⟨evs, ws, hE, hq, h1⟩ := request_did h
  have hrc : w'.recent = evs := by rw [hE.recent, hrec]; rfl
  rw [hrc, hE.store]
  rcases h1 with ⟨hfail, rfl⟩ | ⟨q, pre, f, creds, hob, hfil, rfl, hd, hends⟩
  · exact hI.keep hE.drawn (names_fails hfail) hq.quiet
  refine hI.ends hE.drawn ⟨w.drawn, by omega, rfl⟩ hends hq.quiet ?_ ?_
  · rintro x ⟨resp, hres, hx⟩
    have hres := hends.result resp hres
    subst hres
    rcases hx with ⟨a, ha, hk⟩ | ⟨a, ha, hk⟩ | ⟨a, ha, hk⟩ | ⟨a, b, c, ha⟩ | ⟨a, b, ha⟩ <;> cases ha
    rfl
  · intro ht y hy
    cases hy
    obtain ⟨_, _, h3⟩ := received_fresh hf hI (Nat.le_refl _)
    obtain ⟨pd, d, ds, h4, h5, rfl⟩ := buildFilter_ok hfil
    refine ⟨rfl, ?_, ?_⟩
    · exact InOrder.one ⟨url, pre, pd, d, ds, rfl, hob, h4, h5, rfl, hends.result⟩
    · intro x hx a cs hres
      rcases List.mem_append.mp hx with hx | hx
      · exact absurd ⟨_, hres, .inr (.inr (.inr (.inr ⟨a, cs, rfl⟩)))⟩ (h3 x hx)
      · simp at hx; subst hx
        have := hends.result _ hres
        cases this; rfl

theorem authorizePresentation_inv (hI : Inv e w.log w.store w.drawn) {id : String} (now : Int) (h : (authorizePresentation id).run e w = (r, w'))
    (hrec : w.recent = []) : Inv e (w.log ++ [⟨P, now, .authorizePresentation id, r, w'.recent⟩]) w'.store w'.drawn := by
  obtain ⟨ws, hE, hd, h1⟩ := authorizePresentation_did h
  have hrc : w'.recent = [] := by rw [hE.recent, hrec]; rfl
  rw [hrc, hE.store]
  have hq : Quiet ⟨P, now, .authorizePresentation id, r, []⟩ := by intro ev h; simp at h
  rcases h1 with ⟨hfail, rfl⟩ | ⟨p, hi, hs, hends⟩
  · exact hI.keep hE.drawn (names_fails hfail) hq
  have hv : PresInv w.log id p := hI.val _ _ hi
  obtain ⟨n, hn, hk⟩ := hI.key _ _ hi
  simp only [hv.id] at hends
  have hnn : ∀ x, ¬ Names ⟨P, now, .authorizePresentation id, r, []⟩ x :=
    fun x => names_none (by simp) (by simp) (by simp) (by intro resp hr; rw [hends.result resp hr]; simp)
  refine hI.ends hE.drawn ⟨n, by omega, hk⟩ hends hq (fun x hx => absurd hx (hnn x)) ?_
  intro ht y hy
  cases hy
  have hph : InOrder [IsRequest id p.request p.credentials] w.log := by
    have := hv.phase; rw [hs] at this; exact this
  refine ⟨rfl, ?_, (hv.frame (hnn id)).returned⟩
  exact hph.snoc ⟨rfl, ht.either⟩

theorem present_inv (hI : Inv e w.log w.store w.drawn) {id : String} (now : Int) (h : (present P id).run e w = (r, w'))
    (hrec : w.recent = []) : Inv e (w.log ++ [⟨P, now, .present id, r, w'.recent⟩]) w'.store w'.drawn := by
  obtain ⟨evs, hE, h1⟩ := present_did h
  have hrc : w'.recent = evs := by rw [hE.recent, hrec]; rfl
  rw [hrc, hE.store]
  rcases h1 with ⟨hfail, rfl⟩ | ⟨p, pd, vp, jwt, n, u, sub, hi, hs, hpd, hsub, hb, hj, o, rfl, h1⟩
  · exact hI.keep hE.drawn (names_fails hfail) (by intro ev h; simp at h)
  · refine hI.keep hE.drawn (fun x => names_none (by simp) (by simp) (by simp) ?_) (by intro ev h n; simp at h; subst h; simp)
    intro resp hr
    rcases h1 with ⟨_, h1⟩ | ⟨a, _, h1⟩
    · rw [hr] at h1; exact absurd rfl h1.ne_ok
    · rw [hr] at h1; cases h1; simp

/-- One call. -/
theorem step_inv (hf : e.Fresh) (hI : Inv e w.log w.store w.drawn) (st : HStep) :
    Inv e (step e w st).2.log (step e w st).2.store (step e w st).2.drawn := by
  obtain ⟨⟨r, w'⟩, hrun⟩ : ∃ q, (serve st.provider st.req).run e { w with now := w.now + st.wait, recent := [] } = q := ⟨_, rfl⟩
  have hlog : ∀ {α : Type} (p : HProg α) (w : HWorld), (p.run e w).2.log = w.log := by
    intro α p
    induction p with
    | ret r => intro w; rfl
    | get k c ih => intro w; exact ih _ _
    | put k v c ih => intro w; exact ih _ _
    | purge k c ih => intro w; exact ih _ _
    | draw c ih => intro w; exact ih _ _
    | now c ih => intro w; exact ih _ _
    | call c k ih => intro w; exact ih _ _
  have hl : w'.log = w.log := by
    have := hlog (serve st.provider st.req) { w with now := w.now + st.wait, recent := [] }
    rw [hrun] at this; exact this
  have goal : Inv e (w.log ++ [⟨st.provider, w.now + st.wait, st.req, r, w'.recent⟩]) w'.store w'.drawn → 
      Inv e (step e w st).2.log (step e w st).2.store (step e w st).2.drawn := by
    intro h
    simp only [step, hrun, hl]
    exact h
  apply goal
  have hI' : Inv e ({ w with now := w.now + st.wait, recent := [] } : HWorld).log ({ w with now := w.now + st.wait, recent := [] } : HWorld).store
    ({ w with now := w.now + st.wait, recent := [] } : HWorld).drawn := hI
  obtain ⟨q, hq⟩ : ∃ q, st.req = q := ⟨_, rfl⟩
  rw [hq] at hrun ⊢
  cases q with
  | offer req => exact offer_inv hf hI' _ hrun rfl
  | accept req => exact accept_inv hI' _ hrun rfl
  | pin req => exact pin_inv hI' _ hrun rfl
  | token id => exact token_inv hI' _ hrun rfl
  | authorize req => exact authorize_inv hf hI' _ hrun rfl
  | credentials req => exact credentials_inv hI' _ hrun rfl
  | deferred req => exact deferred_inv hI' _ hrun rfl
  | save id => exact save_inv hI' _ hrun rfl
  | cancel id => exact cancel_inv hI' _ hrun rfl
  | request u => exact request_inv hf hI' _ hrun rfl
  | authorizePresentation id => exact authorizePresentation_inv hI' _ hrun rfl
  | present id => exact present_inv hI' _ hrun rfl

theorem start_inv (e : HEnv) (now : Int) : Inv e (start now).log (start now).store (start now).drawn where
  key k v h := by cases h
  val k v h := by cases h
  named en h := by simp [start] at h
  quiet en h := by simp [start] at h

theorem exec_inv (hf : e.Fresh) (hI : Inv e w.log w.store w.drawn) (steps : List HStep) :
    Inv e (exec e w steps).log (exec e w steps).store (exec e w steps).drawn := by
  induction steps generalizing w with
  | nil => exact hI
  | cons s l ih => exact ih (step_inv hf hI s)

theorem reachable_inv (hf : e.Fresh) (h : Reachable e w) : Inv e w.log w.store w.drawn := by
  obtain ⟨now, steps, rfl⟩ := h
  exact exec_inv hf (start_inv e now) steps

end

end Verif.Holder
