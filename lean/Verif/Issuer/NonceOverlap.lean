import Verif.Issuer.OverlapProps
/-!
# Nonces under overlapping calls: the invariant behind C88
-/
namespace Verif.Issuer
open Prog Pool

variable {rng : Nat → Nat → String} {calls : Nat → Call}

/-- The nonce of every stored session was written there by the call that drew it. -/
structure Sessions (rng : Nat → Nat → String) (calls : Nat → Call) (p : Pool State Resp) : Prop where
  keys : Keys (Placed rng calls) (Places rng calls) (DrawnBy rng) (fun _ _ => True) (fun _ => False) (fun _ _ => True) rng p
  nonce : ∀ k v t, p.store k = some v → v.stage = .validated t → ∃ i, DrawnBy rng i t.cNonce ∧ ∃ v, (k, v) ∈ p.wrote i

theorem Sessions.start (hf : FreshTokens rng) (t0 : Int) (calls : Nat → Call) : Sessions rng calls (pool t0 calls) where
  keys := ⟨⟨fun _ _ h => (nomatch h), call_places hf calls⟩, call_once hf calls, fun _ _ h => nomatch h⟩
  nonce := fun _ _ _ h => nomatch h

/-- Entries written stay written. -/
theorem wrote_mono {p : Pool State Resp} (ev : Event) {i : Nat} {x : String × State} (h : x ∈ p.wrote i) :
    x ∈ (Pool.step rng p ev).wrote i := by
  cases ev with
  | tick ns => exact h
  | run j f =>
    simp only [Pool.step]
    split
    all_goals try exact h
    rename_i k v c heq
    show x ∈ setAt _ _ _ _
    by_cases e : i = j
    · subst e; rw [setAt_same]; exact .tail _ h
    · rw [setAt_other _ _ e]; exact h

/-- A stored entry was there before, or the call that runs has just written it. -/
theorem store_step {p : Pool State Resp} (ev : Event) {k : String} {v : State} (h : (Pool.step rng p ev).store k = some v) :
    p.store k = some v ∨ ∃ i c, p.prog i = Prog.put k v c ∧ (k, v) ∈ (Pool.step rng p ev).wrote i := by
  cases ev with
  | tick ns => exact .inl h
  | run i f =>
    simp only [Pool.step] at h ⊢
    split at h <;> rename_i heq
    · exact .inl h
    · exact .inl h
    · rename_i k' v' c
      rcases writeRes_eq (f := f) (s := p.store) (k := k') (k' := k) (v := some v') with e | ⟨rfl, e⟩
      · exact .inl (e.symm.trans h)
      · cases e.symm.trans h
        refine .inr ⟨i, c, heq, ?_⟩
        show _ ∈ setAt _ _ _ _
        rw [setAt_same]; exact .head _
    · rename_i k' c
      rcases writeRes_eq (f := f) (s := p.store) (k := k') (k' := k) (v := none) with e | ⟨rfl, e⟩
      · exact .inl (e.symm.trans h)
      · cases e.symm.trans h
    · exact .inl h
    · exact .inl h

theorem Sessions.step {p : Pool State Resp} (h : Sessions rng calls p) (ev : Event) : Sessions rng calls (Pool.step rng p ev) where
  keys := Keys.step (fun _ _ _ h => (h _ rfl).1) (fun _ _ _ _ => .inr trivial) (fun _ n => ⟨n, rfl⟩) h.keys ev
  nonce := by
    intro k v t hs ht
    rcases store_step ev hs with hs | ⟨i, c, hp, hw⟩
    · obtain ⟨i, h1, v', h2⟩ := h.nonce k v t hs ht
      exact ⟨i, h1, v', wrote_mono ev h2⟩
    · have := h.keys.safe.prog i
      rw [hp] at this
      exact ⟨i, (this.1 v rfl).2.2 t ht, v, hw⟩

/-- The nonce `old` was written under `K` by the call that drew it. -/
def Told (rng : Nat → Nat → String) (K old : String) (p : Pool State Resp) : Prop :=
  ∃ g, DrawnBy rng g old ∧ ∃ v, (K, v) ∈ p.wrote g

theorem Told.step {K old : String} {p : Pool State Resp} (h : Told rng K old p) (ev : Event) : Told rng K old (Pool.step rng p ev) := by
  obtain ⟨g, h1, v, h2⟩ := h
  exact ⟨g, h1, v, wrote_mono ev h2⟩

/-- `old` is not the nonce of session `K`. -/
def NotNonce (K old k : String) (v : State) : Prop := k = K → ∀ t, v.stage = .validated t → t.cNonce ≠ old

/-- The nonce `old` was once written under `K` and is not there any more. -/
structure Superseded (rng : Nat → Nat → String) (K old : String) (p : Pool State Resp) : Prop where
  told : Told rng K old p
  gone : ∀ k v, p.store k = some v → NotNonce K old k v

/-- A call that writes a state with nonce `old` under `K` is the one that drew it, and has not written under `K` before. -/
theorem no_rewrite (hf : FreshTokens rng) {K old : String} {p : Pool State Resp} (hs : Sessions rng calls p) (ht : Told rng K old p)
    {i : Nat} {v : State} {c : Bool → Prog State Resp} (hp : p.prog i = Prog.put K v c) : NotNonce K old K v := by
  rintro - t hv rfl
  obtain ⟨g, hg, v', hw⟩ := ht
  have hi := hs.keys.safe.prog i
  rw [hp] at hi
  have ho := hs.keys.once i
  rw [hp] at ho
  obtain ⟨n, hn⟩ := (hi.1 v rfl).2.2 t hv
  obtain ⟨m, hm⟩ := hg
  obtain ⟨rfl, _⟩ := hf.inj _ _ _ _ (hn.symm.trans hm)
  exact ho.1.resolve_left id _ hw rfl

theorem Superseded.step (hf : FreshTokens rng) {K old : String} {p : Pool State Resp} (hs : Sessions rng calls p) (h : Superseded rng K old p)
    (ev : Event) : Superseded rng K old (Pool.step rng p ev) where
  told := h.told.step ev
  gone := by
    intro k v hv
    rcases store_step ev hv with hv | ⟨i, c, hp, _⟩
    · exact h.gone k v hv
    · rintro rfl
      exact no_rewrite hf hs h.told hp rfl

/-! ### A credential request that uses the nonce -/

/-- The answer is a credential (rather than a transaction id). -/
def Resp.Issued (a : Resp) : Prop := ∃ resp c, a = .credential resp ∧ resp.response = .credential c

/-- Every credential configuration the call can see requires proofs of possession. -/
def Call.NeedsProofs (c : Call) : Prop :=
  ∀ url iss id cfg, c.provider.issuer url = some iss → (id, cfg) ∈ iss.configs → cfg.proofTypes ≠ none

/-- A request with proof `jwt` of nonce `old` passes the check only against `old`. -/
theorem proofChecked_nonce {P : Provider} {cfg : CredentialConfiguration} {t : Token} {req : CredentialRequest} {did jwt old : String}
    {pf : ProofJwt} (hcfg : cfg.proofTypes ≠ none) (hj : req.HasProof jwt) (hd : P.decodeProof jwt = some pf) (hn : pf.nonce = some old)
    (h : ProofChecked P cfg t req did) : t.cNonce = old := by
  unfold ProofChecked at h
  split at h
  · contradiction
  · obtain ⟨_, proof, hpr, hc⟩ := h
    obtain ⟨x, p, _, hp, _, hq, _⟩ := (Credential.checkProofs_ok.1 hc).1 jwt ((CredentialRequest.hasProof_iff hpr jwt).1 hj)
    rw [hd] at hp; cases hp
    rw [hn] at hq; cases hq; rfl

/-- `credential` after its session was read, credential.rs 45-67. -/
def afterRead (P : Provider) (req : CredentialRequest) (st : State) : IProg Resp :=
  (do let ctx ← lift (Credential.context P st req)
      let did ← Credential.verify P ctx req
      Credential.process P ctx did req : IProg CredentialResponse) >>= fun x => pure (.credential x)

/-- It renews the nonce of the session before it answers with a credential. -/
theorem afterRead_puts {P : Provider} {req : CredentialRequest} {st : State} {t : Token} (ht : st.stage = .validated t) :
    Puts t.accessToken Resp.Issued (afterRead P req st) := by
  unfold afterRead
  rw [bind_assoc]
  refine Puts.lift fun ctx hctx => ?_
  have hst : ctx.state = st := (Credential.context_ok.1 hctx).1
  rw [bind_assoc]
  refine Puts.bind Guar.top fun did _ => ?_
  unfold Credential.process
  rw [bind_assoc]
  refine Puts.lift fun ds _ => ?_
  split
  · refine Puts.never (Guar.bind (Q := fun r => ∀ c, r.response ≠ .credential c) ?_ fun x hx => Guar.pure ?_)
    · unfold Credential.deferResponse
      refine Guar.bind Guar.top fun _ _ => Guar.bind Guar.top fun _ _ => Guar.bind Guar.top fun _ _ => Guar.pure ?_
      intro c h; cases h
    · rintro ⟨resp, c, h1, h2⟩
      cases h1
      exact hx c h2
  · unfold Credential.issueResponse
    rw [bind_assoc]
    refine Puts.bind Guar.top fun now _ => ?_
    rw [bind_assoc]
    refine Puts.lift fun c _ => ?_
    rw [bind_assoc]
    refine Puts.bind Guar.top fun now₁ _ => ?_
    rw [hst, ht]
    simp only
    rw [bind_assoc]
    refine Puts.bind Guar.top fun n _ => ?_
    rw [bind_assoc]
    refine Puts.bind Guar.top fun now₂ _ => ?_
    rw [bind_assoc]
    exact Puts.putE

/-- With a proof for another nonce it does not answer with success. -/
theorem afterRead_refused {P : Provider} {req : CredentialRequest} {st : State} {jwt old : String} {pf : ProofJwt}
    (hneed : ∀ url iss id cfg, P.issuer url = some iss → (id, cfg) ∈ iss.configs → cfg.proofTypes ≠ none) (hj : req.HasProof jwt)
    (hd : P.decodeProof jwt = some pf) (hn : pf.nonce = some old) (h : ∀ t, st.stage = .validated t → t.cNonce ≠ old) :
    Guar (fun _ _ => True) (fun _ _ => True) (fun _ => True) (afterRead P req st) (fun _ => False) := by
  unfold afterRead
  refine Guar.bind (Q := fun _ => False) ?_ fun _ h => h.elim
  refine Guar.bind (Q := fun ctx => Credential.context P st req = .ok ctx) (Guar.lift fun _ h => h) fun ctx hctx => ?_
  obtain ⟨hst, h1, _, h3⟩ := Credential.context_ok.1 hctx
  refine Guar.bind (Credential.verify_guar fun _ _ _ _ _ _ => trivial) fun did hdid => ?_
  obtain ⟨t, _, _, ht, _, _, hp⟩ := hdid
  rw [hst] at ht
  exact absurd (proofChecked_nonce (hneed _ _ _ _ h1 (Dict.mem_of_get? h3)) hj hd hn hp) (h t ht)

/-- Where a credential request with a proof for `old` stands: not started, bound to fail, about to renew the nonce, or past that. -/
def Using (rng : Nat → Nat → String) (K old : String) (start : Prog State Resp) (i : Nat) (p : Pool State Resp) : Prop :=
  p.prog i = start ∨ Guar (fun _ _ => True) (fun _ _ => True) (fun _ => True) (p.prog i) (fun a => ¬ a.Issued) ∨
    Puts K Resp.Issued (p.prog i) ∧ Told rng K old p ∨ Superseded rng K old p

theorem Using.step (hf : FreshTokens rng) {req : CredentialRequest} {i : Nat} {jwt old : String} {pf : ProofJwt}
    (hneed : (calls i).NeedsProofs) (hj : req.HasProof jwt) (hd : (calls i).provider.decodeProof jwt = some pf)
    (hn : pf.nonce = some old) (hK : TokenKey rng calls req.accessToken) {p : Pool State Resp} (hs : Sessions rng calls p)
    (h : Using rng req.accessToken old (call (calls i).provider (.credential req)) i p) (ev : Event) :
    Using rng req.accessToken old (call (calls i).provider (.credential req)) i (Pool.step rng p ev) := by
  rcases h with h | h | ⟨h, ht⟩ | h
  · cases ev with
    | tick ns => exact .inl h
    | run j f =>
      by_cases e : i = j
      · subst e
        have hp : (Pool.step rng p (.run i f)).prog i = match Prog.getRes f (p.store req.accessToken) with
            | some st => afterRead (calls i).provider req st
            | none => ret (.error (.accessDenied "invalid access token")) := by
          have hg : p.prog i = Prog.get req.accessToken (fun o => match o with
              | some st => afterRead (calls i).provider req st
              | none => ret (.error (.accessDenied "invalid access token"))) := by
            rw [h]
            show Prog.get _ _ = _
            congr 1
            funext o
            cases o <;> rfl
          simp only [Pool.step]
          rw [hg]
          simp only [setAt_same]
        have hst : ∀ k v, (Pool.step rng p (.run i f)).wrote k = v ↔ p.wrote k = v := by
          intro k v
          simp only [Pool.step]
          rw [h]
          rfl
        cases ho : Prog.getRes f (p.store req.accessToken) with
        | none =>
          rw [ho] at hp
          refine .inr (.inl ?_)
          rw [hp]; trivial
        | some st =>
          rw [ho] at hp
          have hstore := getRes_some ho
          obtain ⟨t, ht, hta⟩ := (hs.keys.safe.store _ _ hstore).2 hK
          by_cases hold : t.cNonce = old
          · refine .inr (.inr (.inl ⟨?_, ?_⟩))
            · rw [hp, ← hta]; exact afterRead_puts ht
            · obtain ⟨g, hg, v, hv⟩ := hs.nonce _ _ _ hstore ht
              exact ⟨g, hold ▸ hg, v, wrote_mono _ hv⟩
          · refine .inr (.inl ?_)
            rw [hp]
            refine (afterRead_refused hneed hj hd hn ?_).mono fun _ h => h.elim
            intro t' ht'
            rw [ht] at ht'; cases ht'; exact hold
      · exact .inl ((step_other e).trans h)
  · exact .inr (.inl (guar_step (R := fun _ _ => True) (fun _ _ _ => trivial) h ev))
  · have ht' := ht.step ev
    cases ev with
    | tick ns => exact .inr (.inr (.inl ⟨h, ht'⟩))
    | run j f =>
      by_cases e : i = j
      · subst e
        cases hp : p.prog i with
        | put k v c =>
          by_cases hk : k = req.accessToken
          · subst hk
            by_cases hff : f = .ok
            · subst hff
              refine .inr (.inr (.inr ⟨ht', ?_⟩))
              intro k' v' hv hk'
              subst hk'
              simp only [Pool.step, hp, writeRes, upd_same] at hv
              cases hv
              exact no_rewrite hf hs ht hp rfl
            · refine .inr (.inr (.inl ⟨?_, ht'⟩))
              rw [hp] at h
              simp only [Pool.step, hp, setAt_same, hff, decide_false]
              exact h.1 rfl
          · refine .inr (.inr (.inl ⟨?_, ht'⟩))
            rw [hp] at h
            simp only [Pool.step, hp, setAt_same]
            exact h.2 hk _
        | ret r =>
          refine .inr (.inr (.inl ⟨?_, ht'⟩))
          simp only [Pool.step, hp]
          rw [hp] at h; exact h
        | _ =>
          refine .inr (.inr (.inl ⟨?_, ht'⟩))
          rw [hp] at h
          simp only [Pool.step, hp, setAt_same]
          exact h _
      · exact .inr (.inr (.inl ⟨by rw [step_other e]; exact h, ht'⟩))
  · exact .inr (.inr (.inr (h.step hf hs ev)))

/-- The access token of a token response was drawn by the call that answered. -/
theorem answered_tokenKey (hf : FreshTokens rng) {t0 : Int} {k : Nat} {q : TokenRequest} (hk : (calls k).req = .token q)
    {s : List Event} {tr : TokenResponse} (h : ((pool t0 calls).exec rng s).Answered k (.ok (.token tr))) :
    TokenKey rng calls tr.accessToken := by
  let Q : Nat → Resp → Prop := fun i a => ∀ tr r, a = .token tr → (calls i).req = .token r → DrawnBy rng i tr.accessToken
  have h0 : Pool.Safe (Placed rng calls) (Places rng calls) (DrawnBy rng) Q (pool t0 calls) := by
    refine ⟨fun _ _ h => (nomatch h), fun j => ?_⟩
    by_cases htok : ∃ r, (calls j).req = .token r
    · obtain ⟨r, hr⟩ := htok
      show Guar _ _ _ (call (calls j).provider (calls j).req) _
      rw [hr]
      refine Guar.bind (token_guar (fun s h => nomatch h) ?_) fun x hx => Guar.pure fun tr r' htr _ => ?_
      · exact fun s k n t t' items _ hk hn _ _ => token_places hr hk hn
      · obtain ⟨_, _, _, k, n, _, _, _, rfl, hkd, _⟩ := hx
        cases htr
        exact hkd
    · exact (call_places hf calls j).mono fun _ _ tr r _ hr => absurd ⟨r, hr⟩ htok
  obtain ⟨n, hn⟩ := (h0.exec (fun _ _ _ h => (h _ rfl).1) (fun _ n => ⟨n, rfl⟩) s).answered h tr q rfl hk
  exact ⟨k, n, q, hk, hn⟩

/-! ### C88 -/

/-- **C88**, the part that holds under every schedule, with faults and crashes anywhere: let two credential requests carry the same access
token (one that the token endpoint gave out) and the same proof of possession. If the first has been answered with a credential before
the second starts, the second is never answered with success, whatever other calls run in between or at the same time. (The full claim
would say the same of calls that overlap.) -/
theorem C88_proof_refused_after_answer_partial (hf : FreshTokens rng) {t0 : Int} {k i j : Nat} {q : TokenRequest}
    {r r' : CredentialRequest} (hk : (calls k).req = .token q) (hi : (calls i).req = .credential r) (hj : (calls j).req = .credential r')
    (hacc : r'.accessToken = r.accessToken) {jwt : String} (hp : r.HasProof jwt) (hp' : r'.HasProof jwt)
    (hdec : (calls j).provider.decodeProof jwt = (calls i).provider.decodeProof jwt)
    (hneed : (calls i).NeedsProofs) (hneed' : (calls j).NeedsProofs) {s s' : List Event} {tr : TokenResponse}
    (htok : ((pool t0 calls).exec rng s).Answered k (.ok (.token tr))) (htr : tr.accessToken = r.accessToken)
    {resp : CredentialResponse} {c : IssuedCredential} (hdone : ((pool t0 calls).exec rng s).Answered i (.ok (.credential resp)))
    (hc : resp.response = .credential c) (hidle : Idle j s) {b : Resp} :
    ¬ ((pool t0 calls).exec rng (s ++ s')).Answered j (.ok b) := by
  have hK : TokenKey rng calls r.accessToken := htr ▸ answered_tokenKey hf hk htok
  -- the proof decodes, and has a nonce
  have hpf : ∃ pf old, (calls i).provider.decodeProof jwt = some pf ∧ pf.nonce = some old := by
    let Q : Nat → Resp → Prop := fun m _ => m = i → ∃ pf old, (calls i).provider.decodeProof jwt = some pf ∧ pf.nonce = some old
    have h0 : Pool.Safe (fun _ _ => True) (fun _ _ _ => True) (fun _ _ => True) Q (pool t0 calls) := by
      refine ⟨fun _ _ h => (nomatch h), fun m => ?_⟩
      by_cases e : m = i
      · subst e
        show Guar _ _ _ (call (calls m).provider (calls m).req) _
        rw [hi]
        refine Guar.bind (credential_guar (fun _ _ _ _ _ _ _ _ => trivial) (fun _ _ _ _ _ _ _ _ _ _ => trivial) fun _ _ _ => trivial)
          fun x hx => Guar.pure fun _ => ?_
        obtain ⟨st, t, _, _, _, _, _, _, h3⟩ := hx
        have key : ∃ ctx did, Credential.context (calls m).provider st r = .ok ctx ∧
            ProofChecked (calls m).provider ctx.config t r did := by
          cases h3 with
          | issued ctx did _ _ _ _ _ _ _ h1 h2 => exact ⟨ctx, did, h1, h2⟩
          | deferred ctx did _ _ h1 h2 => exact ⟨ctx, did, h1, h2⟩
        obtain ⟨ctx, did, h1, h2⟩ := key
        obtain ⟨_, h4, _, h5⟩ := Credential.context_ok.1 h1
        unfold ProofChecked at h2
        split at h2
        · rename_i hno
          exact absurd hno (hneed _ _ _ _ h4 (Dict.mem_of_get? h5))
        · obtain ⟨_, proof, hpr, hc⟩ := h2
          obtain ⟨x, pf, _, h6, _, h7, _⟩ := (Credential.checkProofs_ok.1 hc).1 jwt ((CredentialRequest.hasProof_iff hpr jwt).1 hp)
          exact ⟨pf, _, h6, h7⟩
      · exact Guar.top.mono fun _ _ h => absurd h e
    exact (h0.exec (fun _ _ _ _ => trivial) (fun _ _ => trivial) s).answered hdone rfl
  obtain ⟨pf, old, hd, hn⟩ := hpf
  -- the nonce is gone when the first call is answered
  have h1 := Pool.exec_inv (rng := rng) (I := fun p => Sessions rng calls p ∧
      Using rng r.accessToken old (call (calls i).provider (.credential r)) i p)
    (fun p ev h => ⟨h.1.step ev, h.2.step hf hneed hp hd hn hK h.1 ev⟩)
    ⟨Sessions.start hf t0 calls, .inl (by show call _ (calls i).req = _; rw [hi])⟩ s
  obtain ⟨hs, hu⟩ := h1
  have hiss : Resp.Issued (.credential resp) := ⟨resp, c, rfl, hc⟩
  have hret : Superseded rng r.accessToken old ((pool t0 calls).exec rng s) := by
    rcases hu with hu | hu | ⟨hu, _⟩ | hu
    · rw [show ((pool t0 calls).exec rng s).prog i = _ from hdone] at hu
      cases hu
    · rw [show ((pool t0 calls).exec rng s).prog i = _ from hdone] at hu
      exact absurd hiss hu
    · rw [show ((pool t0 calls).exec rng s).prog i = _ from hdone] at hu
      exact absurd hiss hu
    · exact hu
  -- so the second call cannot pass
  have hstart : Guar (NotNonce r.accessToken old) (fun _ _ => True) (fun _ => True) (((pool t0 calls).exec rng s).prog j)
      (fun _ => False) := by
    rw [idle_prog hidle]
    show Guar _ _ _ (call (calls j).provider (calls j).req) _
    rw [hj]
    refine Guar.bind (credential_guar (fun _ _ _ _ _ _ _ _ => trivial) (fun _ _ _ _ _ _ _ _ _ _ => trivial) fun _ _ _ => trivial)
      fun x hx => ?_
    obtain ⟨st, t, _, _, hR, ht, _, _, h3⟩ := hx
    have key : ∃ ctx did, Credential.context (calls j).provider st r' = .ok ctx ∧
        ProofChecked (calls j).provider ctx.config t r' did := by
      cases h3 with
      | issued ctx did _ _ _ _ _ _ _ h1 h2 => exact ⟨ctx, did, h1, h2⟩
      | deferred ctx did _ _ h1 h2 => exact ⟨ctx, did, h1, h2⟩
    obtain ⟨ctx, did, h1, h2⟩ := key
    obtain ⟨_, h4, _, h5⟩ := Credential.context_ok.1 h1
    exact absurd (proofChecked_nonce (hneed' _ _ _ _ h4 (Dict.mem_of_get? h5)) hp' (hdec.trans hd) hn h2) (hR hacc t ht)
  rw [Pool.exec_append]
  have h2 := Pool.exec_inv (rng := rng) (I := fun p => Sessions rng calls p ∧ Superseded rng r.accessToken old p ∧
      Guar (NotNonce r.accessToken old) (fun _ _ => True) (fun _ => True) (p.prog j) (fun _ => False))
    (fun p ev h => ⟨h.1.step ev, h.2.1.step hf h.1 ev, guar_step h.2.1.gone h.2.2 ev⟩) ⟨hs, hret, hstart⟩ s'
  intro hb
  have := h2.2.2
  rw [show (((pool t0 calls).exec rng s).exec rng s').prog j = .ret (.ok b) from hb] at this
  exact this

end Verif.Issuer
