import Verif.Issuer.Overlap
/-!
# Properties of the issuer that hold for every schedule of overlapping calls: C86, C87
-/
namespace Verif.Issuer
open Prog Pool

/-! ### C86 -/

/-- **C86**, the part that holds under every schedule, with faults and crashes anywhere: let two calls name the same single-use value `c`
(a grant code to redeem, an offer id to fetch, a transaction id to poll, an issuer state to authorize with), `c` not being an access
token. If the first has been answered with success before the second starts, the second is never answered with success, whatever
other calls run in between or at the same time. (The full claim would say the same of calls that overlap.) -/
theorem C86_used_values_refused_partial {rng : Nat → Nat → String} (hf : FreshTokens rng) {t0 : Int} {calls : Nat → Call} {c : String}
    {i j : Nat} (hi : (calls i).req.Consumes c) (hj : (calls j).req.Consumes c)
    (hc : ∀ k n r, (calls k).req = .token r → c ≠ rng k n) {s s' : List Event} {a b : Resp}
    (hdone : ((pool t0 calls).exec rng s).Answered i (.ok a)) (hidle : Idle j s) :
    ¬ ((pool t0 calls).exec rng (s ++ s')).Answered j (.ok b) := by
  refine taken_once (fun _ _ _ h => (h _ rfl).1) (fun _ _ _ h => (h _ rfl).2.1) (fun _ n => ⟨n, rfl⟩)
    (fun _ _ _ h1 h2 => h1.unique hf h2) ?_ (pool_keys hf t0 calls) (consumes_takes hi) (consumes_takes hj).reads hdone hidle
  rintro ⟨k, n, r, hk, he⟩
  exact hc k n r hk he

/-- A code that a token request redeems is not an access token. -/
theorem redeemed_not_token {rng : Nat → Nat → String} (hf : FreshTokens rng) {t0 : Int} {calls : Nat → Call} {i : Nat} {req : TokenRequest}
    (hi : (calls i).req = .token req) {s : List Event} {a : Resp} (hdone : ((pool t0 calls).exec rng s).Answered i (.ok a)) :
    ¬ TokenKey rng calls req.grantType.code := by
  let Q : Nat → Resp → Prop := fun i _ => ∀ r, (calls i).req = .token r →
    ∃ st t, Placed rng calls r.grantType.code st ∧ Token.verify (calls i).provider st t r = .ok ()
  have h0 : Pool.Safe (Placed rng calls) (Places rng calls) (DrawnBy rng) Q (pool t0 calls) := by
    refine ⟨fun _ _ h => (nomatch h), fun j => ((call_places hf calls j).and (G' := fun _ _ => True) (Q' := Q j) ?_).mono
      fun _ h => h.2⟩
    cases hreq : (calls j).req with
    | token r =>
      refine Guar.bind (token_guar trivial fun _ _ _ _ _ _ _ _ _ _ _ => trivial) fun x hx => Guar.pure fun r' hr' => ?_
      rw [hreq] at hr'; cases hr'
      obtain ⟨st, t, _, _, _, h1, h2, _⟩ := hx
      exact ⟨st, t, h1, h2⟩
    | _ => exact Guar.top.mono fun _ _ r' hr' => by rw [hreq] at hr'; cases hr'
  obtain ⟨st, t, h1, h2⟩ := ((h0.exec (fun _ _ _ h => (h _ rfl).1) (fun _ n => ⟨n, rfl⟩) s).answered hdone) req hi
  intro hT
  obtain ⟨tok, ht, _⟩ := h1.2 hT
  obtain ⟨_, srv, _, sup, _, hg, _⟩ := Token.verify_ok.1 h2
  unfold Token.checkGrant at hg
  split at hg <;> rw [ht] at hg <;> cases hg

/-- **C86** for grant codes: under every schedule, once a token request has been answered with a token, every token request for the
same code that starts later is refused. -/
theorem C86_codes_refused_after_answer_partial {rng : Nat → Nat → String} (hf : FreshTokens rng) {t0 : Int} {calls : Nat → Call}
    {i j : Nat} {req req' : TokenRequest} (hi : (calls i).req = .token req) (hj : (calls j).req = .token req')
    (hc : req'.grantType.code = req.grantType.code) {s s' : List Event} {a b : Resp}
    (hdone : ((pool t0 calls).exec rng s).Answered i (.ok a)) (hidle : Idle j s) :
    ¬ ((pool t0 calls).exec rng (s ++ s')).Answered j (.ok b) := by
  refine C86_used_values_refused_partial hf (c := req.grantType.code) (by rw [hi]; rfl) (by rw [hj]; exact hc) ?_ hdone hidle
  intro k n r hk he
  exact redeemed_not_token hf hi hdone ⟨k, n, r, hk, he⟩

/-! ### C87 -/

/-- **C87**. Let `May subject cfg id` be any relation that covers every answer of the Subject provider's `authorize`. However calls
overlap, every offer, authorization and access token in the store holds only credential identifiers that its own subject may have. -/
theorem C87_subject_consistent {May : String → String → String → Prop} {rng : Nat → Nat → String} {t0 : Int} {calls : Nat → Call}
    (hP : ∀ i, (calls i).provider.Within May) (s : List Event) {k : String} {v : State}
    (hv : ((pool t0 calls).exec rng s).store k = some v) : v.Within May := by
  have h0 : Pool.Safe (fun _ v => v.Within May) (fun _ => PutOk fun _ v => v.Within May) (fun _ _ => True) (fun _ _ => True)
      (pool t0 calls) := ⟨fun _ _ h => (nomatch h), fun i => call_within (hP i) _⟩
  exact (h0.exec (fun _ _ _ h => h) (fun _ _ => trivial) s).store k v hv

/-- **C87**, consequence: however calls overlap, a credential is issued (directly or after deferral) only with claims of the dataset of
a subject and credential identifier that the Subject provider authorized together. -/
theorem C87_issued_within {May : String → String → String → Prop} {rng : Nat → Nat → String} {t0 : Int} {calls : Nat → Call}
    (hP : ∀ i, (calls i).provider.Within May) (s : List Event) {i : Nat} {resp : CredentialResponse}
    (hans : ((pool t0 calls).exec rng s).Answered i (.ok (.credential resp)) ∨
      ((pool t0 calls).exec rng s).Answered i (.ok (.deferred resp))) {c : IssuedCredential} (hc : resp.response = .credential c) :
    ∃ subject cfg id ds, May subject cfg id ∧ (calls i).provider.dataset subject id = some ds ∧
      ∀ did claims, c.Says did claims → ∀ x ∈ claims, x ∈ ds.claims := by
  let Q : Nat → Resp → Prop := fun i a => ∀ resp, a = .credential resp ∨ a = .deferred resp →
    ∃ st t req, st.Within May ∧ st.stage = .validated t ∧ Issues (calls i).provider st t req resp
  have h0 : Pool.Safe (fun _ v => v.Within May) (fun _ => PutOk fun _ v => v.Within May) (fun _ _ => True) Q (pool t0 calls) := by
    refine ⟨fun _ _ h => (nomatch h), fun j => ((call_within (hP j) _).and (G' := fun _ _ => True) (Q' := Q j) ?_).mono
      fun _ h => h.2⟩
    cases hreq : (calls j).req with
    | credential r =>
      refine Guar.bind (credential_guar (fun _ _ _ _ _ _ _ _ => trivial) (fun _ _ _ _ _ _ _ _ _ _ => trivial) fun _ _ _ => trivial)
        fun x hx => Guar.pure fun resp hr => ?_
      obtain ⟨st, t, _, _, h1, h2, _, _, h3⟩ := hx
      rcases hr with hr | hr <;> cases hr
      exact ⟨st, t, r, h1, h2, h3⟩
    | deferred r =>
      refine Guar.bind (deferred_guar trivial (fun _ _ _ _ _ _ _ _ => trivial) (fun _ _ _ _ _ _ _ _ _ _ => trivial)
        fun _ _ _ _ => trivial) fun x hx => Guar.pure fun resp hr => ?_
      obtain ⟨_, _, _, st, t, _, _, h1, h2, h3⟩ := hx
      rcases hr with hr | hr <;> cases hr
      exact ⟨st, t, _, h1, h2, h3⟩
    | _ => exact Guar.bind Guar.top fun _ _ => Guar.pure fun resp hr => by rcases hr with hr | hr <;> cases hr
  obtain ⟨st, t, req, h1, h2, h3⟩ : ∃ st t req, st.Within May ∧ st.stage = .validated t ∧ Issues (calls i).provider st t req resp := by
    have := h0.exec (fun _ _ _ h => h) (rng := rng) (fun _ _ => trivial) s
    rcases hans with hans | hans
    · exact this.answered hans resp (.inl rfl)
    · exact this.answered hans resp (.inr rfl)
  cases h3 with
  | deferred => cases hc
  | issued ctx did ds c' now x y n nid hctx _ hds hp hs =>
    cases hc
    obtain ⟨h0, _, h4, _⟩ := Credential.context_ok.1 hctx
    simp only [Credential.dataset, Except.bind_ok, orErr_ok, pure, Except.pure, Except.ok.injEq] at hds
    obtain ⟨subject, h6, ds0, h7, rfl⟩ := hds
    rw [h0] at h6
    have hmem : ∃ k, (k, ctx.authorized) ∈ t.credentials := by
      have := Credential.authorized_ok h2 h4
      generalize req.credential = x at this
      cases this <;> exact ⟨_, by assumption⟩
    obtain ⟨k, hk⟩ := hmem
    obtain ⟨subject', h8, h9⟩ := h1 ctx.authorized.configId ctx.authorized.identifier (.inr ⟨t, k, _, h2, hk, rfl, rfl⟩)
    rw [h6] at h8; cases h8
    refine ⟨subject, _, _, ds0, h9, h7, fun d claims hsays x hx => ?_⟩
    rw [(Credential.signed_says hs hsays).1, Credential.mem_narrow, Credential.mem_narrow] at hx
    exact hx.1.1

end Verif.Issuer
