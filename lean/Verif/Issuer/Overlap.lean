import Verif.Sched
import Verif.Issuer.SessionProps
/-!
# The issuer under overlapping calls: invariants of every schedule
-/
namespace Verif.Issuer
open Prog Pool

/-- One call of an endpoint, with the provider it sees. Specification; models no code. -/
structure Call where
  provider : Provider
  req : Req

/-- Any number of calls, none of which has started, over an empty store. Specification; models no code. -/
def pool (t0 : Int) (calls : Nat → Call) : Pool State Resp :=
  Pool.start t0 fun i => call (calls i).provider (calls i).req

/-- Assumption on the random source: no token is drawn twice, by the same call or by different calls, and none is a request URI.
Specification; models no code. -/
structure FreshTokens (rng : Nat → Nat → String) : Prop where
  inj : ∀ i n j m, rng i n = rng j m → i = j ∧ n = m
  noUrn : ∀ i n j m, rng i n ≠ urn ++ rng j m

/-- `k` is a token drawn by some call of the token endpoint: an access token or a nonce. Specification; models no code. -/
def TokenKey (rng : Nat → Nat → String) (calls : Nat → Call) (k : String) : Prop :=
  ∃ i n r, (calls i).req = .token r ∧ k = rng i n

/-- `k` is a token drawn by call `i`, or the request URI made of it. Specification; models no code. -/
def Owns (rng : Nat → Nat → String) (i : Nat) (k : String) : Prop := ∃ n, k = rng i n ∨ k = urn ++ rng i n

theorem Owns.unique {rng : Nat → Nat → String} (hf : FreshTokens rng) {i j : Nat} {k : String} (hi : Owns rng i k)
    (hj : Owns rng j k) : i = j := by
  obtain ⟨n, rfl | rfl⟩ := hi <;> obtain ⟨m, h | h⟩ := hj
  · exact (hf.inj _ _ _ _ h).1
  · exact absurd h (hf.noUrn _ _ _ _)
  · exact absurd h.symm (hf.noUrn _ _ _ _)
  · exact (hf.inj _ _ _ _ (urn_append_inj h)).1

/-- What every stored state satisfies: the access token of a session was drawn by a call of the token endpoint, and only sessions with
that access token are stored under such tokens. Specification; models no code. -/
def Placed (rng : Nat → Nat → String) (calls : Nat → Call) (k : String) (s : State) : Prop :=
  (∀ t, s.stage = .validated t → TokenKey rng calls t.accessToken) ∧ 
    (TokenKey rng calls k → ∃ t, s.stage = .validated t ∧ t.accessToken = k)

/-- The tokens of call `i`. Specification; models no code. -/
def DrawnBy (rng : Nat → Nat → String) (i : Nat) (k : String) : Prop := ∃ n, k = rng i n

/-- What every write satisfies: besides, the nonce of a session was drawn by the call that writes it. Specification; models no code. -/
def Places (rng : Nat → Nat → String) (calls : Nat → Call) (i : Nat) (k : String) (v : Option State) : Prop :=
  ∀ s, v = some s → Placed rng calls k s ∧ (TokenKey rng calls k ∨ Owns rng i k) ∧
    ∀ t, s.stage = .validated t → DrawnBy rng i t.cNonce

theorem token_places {rng : Nat → Nat → String} {calls : Nat → Call} {i : Nat} {r : TokenRequest} (hr : (calls i).req = .token r)
    {s : State} {k n : String} {t : Int} {items : List AuthorizedItem} (hk : DrawnBy rng i k) (hn : DrawnBy rng i n) :
    Places rng calls i k (some (Token.stored s k n t items)) := by
  intro s' h
  cases h
  obtain ⟨m, rfl⟩ := hk
  have : TokenKey rng calls (rng i m) := ⟨i, m, r, hr, rfl⟩
  refine ⟨⟨fun t ht => ?_, fun _ => ⟨_, rfl, rfl⟩⟩, .inl this, fun t ht => ?_⟩
  · cases ht; exact this
  · cases ht; exact hn

theorem call_places {rng : Nat → Nat → String} (hf : FreshTokens rng) (calls : Nat → Call) (i : Nat) :
    Guar (Placed rng calls) (Places rng calls i) (DrawnBy rng i) (call (calls i).provider (calls i).req) (fun _ => True) := by
  by_cases htok : ∃ r, (calls i).req = .token r
  · obtain ⟨r, hr⟩ := htok
    rw [hr]
    refine Guar.bind (token_guar (fun s h => nomatch h) ?_) fun _ _ => Guar.pure trivial
    exact fun s k n t t' items _ hk hn _ _ => token_places hr hk hn
  · have hno : ∀ m, ¬ TokenKey rng calls (rng i m) := by
      rintro m ⟨j, n, r, hj, he⟩
      obtain ⟨rfl, _⟩ := hf.inj _ _ _ _ he
      exact htok ⟨r, hj⟩
    have hnoU : ∀ m, ¬ TokenKey rng calls (urn ++ rng i m) := by
      rintro m ⟨j, n, r, hj, he⟩
      exact hf.noUrn _ _ _ _ he.symm
    cases hreq : (calls i).req with
    | token r => exact absurd ⟨r, hreq⟩ htok
    | _ =>
      refine call_guar_req (fun _ s h => nomatch h) ?_ ?_ ?_ ?_ ?_ ?_ ?_ ?_
      · rintro k t subj items tx ⟨m, rfl⟩ _ s h
        cases h
        exact ⟨⟨nofun, fun h => absurd h (hno m)⟩, .inr ⟨m, .inl rfl⟩, nofun⟩
      · rintro k t subj items ⟨m, rfl⟩ s h
        cases h
        exact ⟨⟨nofun, fun h => absurd h (hno m)⟩, .inr ⟨m, .inl rfl⟩, nofun⟩
      · rintro subj k t a ⟨m, rfl⟩ _ s h
        cases h
        exact ⟨⟨nofun, fun h => absurd h (hno m)⟩, .inr ⟨m, .inl rfl⟩, nofun⟩
      · rintro r k t _ ⟨m, rfl⟩ s h
        cases h
        exact ⟨⟨nofun, fun h => absurd h (hnoU m)⟩, .inr ⟨m, .inr rfl⟩, nofun⟩
      · intro r c s k n t items h; cases h
      · rintro c s t n x y hr hs hn s' h
        cases h
        exact ⟨⟨fun t' ht' => by cases ht'; exact hr.1 t hs, fun _ => ⟨_, rfl, rfl⟩⟩, .inl (hr.1 t hs),
          fun t' ht' => by cases ht'; exact hn⟩
      · rintro c s t n k x y hr hs hn ⟨m, rfl⟩ s' h
        cases h
        exact ⟨⟨fun t' ht' => by cases ht'; exact hr.1 t hs, fun h => absurd h (hno m)⟩, .inr ⟨m, .inl rfl⟩,
          fun t' ht' => by cases ht'; exact hn⟩
      · rintro k t r ⟨m, rfl⟩ s h
        cases h
        exact ⟨⟨nofun, fun h => absurd h (hno m)⟩, .inr ⟨m, .inl rfl⟩, nofun⟩

/-! ### Keys are written once -/

section Once
variable {R : String → State → Prop} {T : String → Prop} {rng : Nat → String} {α : Type}

theorem verify_once {P : Provider} {iss : Issuer} {isPar : Bool} {req : RequestObject} :
    Once R (NewKey fun _ => False) rng (Authorize.verify P iss isPar req) 0 [] (fun _ n u => n = 0 ∧ u = []) := by
  unfold Authorize.verify
  refine Once.bind (Q := fun _ n u => n = 0 ∧ u = []) (Once.lift fun _ _ => ⟨rfl, rfl⟩) fun _ n u h => ?_
  refine Once.bind (Q := fun _ n u => n = 0 ∧ u = []) (Once.lift fun _ _ => h) fun _ n u h => ?_
  refine Once.bind (Q := fun _ n u => n = 0 ∧ u = []) (Once.lift fun _ _ => h) fun _ n u h => ?_
  refine Once.bind (Q := fun _ n u => n = 0 ∧ u = []) ?_ fun _ n u h => Once.lift fun _ _ => h
  unfold Authorize.checkIssuerState
  split
  · exact Once.pure h
  · refine Once.bind (Q := fun _ n u => n = 0 ∧ u = []) (Once.getE fun _ _ => h) fun _ n u h => ?_
    refine Once.bind (Q := fun _ n u => n = 0 ∧ u = []) (Once.nowE fun _ => h) fun _ n u h => ?_
    refine Once.bind (Q := fun _ n u => n = 0 ∧ u = []) (Once.lift fun _ _ => h) fun _ n u h => ?_
    exact Once.lift fun _ _ => h

theorem createOffer_once (hinj : ∀ n m, rng n = rng m → n = m) {P : Provider} {req : CreateOfferRequest} :
    Once R (NewKey fun _ => False) rng (createOffer P req) 0 [] (fun _ _ _ => True) := by
  unfold createOffer
  refine Once.bind (Q := fun _ n u => n = 0 ∧ u = []) (Once.lift fun _ _ => ⟨rfl, rfl⟩) fun iss n u h => ?_
  refine Once.bind (Q := fun _ n u => n = 0 ∧ u = []) (Once.lift fun _ _ => h) fun _ n u h => ?_
  refine Once.bind (Q := fun _ n u => n = 0 ∧ u = []) (Once.lift fun _ _ => h) fun _ n u h => ?_
  obtain ⟨rfl, rfl⟩ := h
  unfold CreateOffer.process
  refine Once.bind (Q := fun c n u => c = rng 0 ∧ n = 1 ∧ u = []) (Once.drawE ⟨rfl, rfl, rfl⟩) fun code n u h => ?_
  obtain ⟨rfl, rfl, rfl⟩ := h
  refine Once.bind (Q := fun o n u => CreateOffer.credentialOffer iss req (rng 0) = .ok o ∧ n = 1 ∧ u = [])
    (Once.lift fun _ h => ⟨h, rfl, rfl⟩) fun offer n u h => ?_
  obtain ⟨hoffer, rfl, rfl⟩ := h
  refine Once.bind (Q := fun _ n u => 0 < n ∧ u = []) ?_ fun tx n u h => ?_
  · unfold CreateOffer.txCode
    split
    · exact Once.bind (Q := fun _ n u => 0 < n ∧ u = []) (Once.drawE ⟨by omega, rfl⟩) fun _ _ _ h => Once.pure h
    · exact Once.pure ⟨by omega, rfl⟩
  obtain ⟨hn, rfl⟩ := h
  refine Once.bind (Q := fun _ n u => 0 < n ∧ ∀ x ∈ u, x.1 = rng 0) ?_ fun _ n u h => ?_
  · unfold CreateOffer.saveOffer
    split
    · refine Once.bind (Q := fun _ n u => 0 < n ∧ u = []) (Once.lift fun _ _ => ⟨hn, rfl⟩) fun items n u h => ?_
      refine Once.bind (Q := fun k n u => CreateOffer.stateKey offer.grants = .ok k ∧ 0 < n ∧ u = [])
        (Once.lift fun _ hk => ⟨hk, h⟩) fun k n u h => ?_
      refine Once.bind (Q := fun _ n u => 0 < n ∧ u = []) (Once.nowE fun _ => h.2) fun t n u h' => ?_
      obtain ⟨hn', rfl⟩ := h'
      have := CreateOffer.stateKey_of hoffer h.1
      subst this
      exact Once.putE NewKey.nil ⟨hn', by simp⟩
    · exact Once.pure ⟨hn, by simp⟩
  · unfold CreateOffer.respond
    split
    · exact Once.pure trivial
    · refine Once.bind (Q := fun k n' u' => k = rng n ∧ u' = u) (Once.drawE ⟨rfl, rfl⟩) fun k n' u' hk => ?_
      refine Once.bind (Q := fun _ _ u' => u' = u) (Once.nowE fun _ => hk.2) fun t n' u' hu => ?_
      refine Once.bind (Q := fun _ _ _ => True) (Once.putE (.inr fun x hx hm => ?_) trivial) fun _ _ _ _ => Once.pure trivial
      subst hu
      have := h.2 _ hx
      rw [hm, hk.1] at this
      have := hinj _ _ this
      omega

theorem authorize_once {P : Provider} {request : AuthorizationRequest} :
    Once R (NewKey fun _ => False) rng (authorize P request) 0 [] (fun _ _ _ => True) := by
  unfold authorize
  refine Once.bind (Q := fun _ n u => n = 0 ∧ u = []) ?_ fun x n u h => ?_
  · unfold Authorize.resolve
    split
    · exact Once.pure ⟨rfl, rfl⟩
    · refine Once.bind (Q := fun _ n u => n = 0 ∧ u = []) (Once.getE fun _ _ => ⟨rfl, rfl⟩) fun s n u h => ?_
      refine Once.bind (Q := fun _ n u => n = 0 ∧ u = []) (Once.lift fun _ _ => h) fun _ n u h => ?_
      refine Once.bind (Q := fun _ n u => n = 0 ∧ u = []) (Once.nowE fun _ => h) fun _ n u h => ?_
      refine Once.bind (Q := fun _ n u => n = 0 ∧ u = []) (Once.lift fun _ _ => h) fun _ n u h => ?_
      exact Once.pure h
  refine Once.bind (Q := fun _ n u => n = 0 ∧ u = []) (Once.lift fun _ _ => h) fun _ n u h => ?_
  obtain ⟨rfl, rfl⟩ := h
  refine Once.bind verify_once fun y n u h => ?_
  unfold Authorize.process
  refine Once.bind (Q := fun _ n u => n = 0 ∧ u = []) (Once.lift fun _ _ => h) fun _ n u h => ?_
  refine Once.bind (Q := fun _ n u => n = 0 ∧ u = []) (Once.nowE fun _ => h) fun _ n u h => ?_
  refine Once.bind (Q := fun _ _ u => u = []) (Once.drawE h.2) fun _ n u h => ?_
  subst h
  refine Once.bind (Q := fun _ _ _ => True) (Once.putE NewKey.nil trivial) fun _ _ _ _ => ?_
  refine Once.bind (Q := fun _ _ _ => True) ?_ fun _ _ _ _ => Once.pure trivial
  unfold Authorize.purgeOffer
  split
  · exact Once.pure trivial
  · exact Once.purgeE trivial

theorem par_once {P : Provider} {req : RequestObject} : Once R (NewKey fun _ => False) rng (par P req) 0 [] (fun _ _ _ => True) := by
  unfold par
  refine Once.bind (Q := fun _ n u => n = 0 ∧ u = []) (Once.lift fun _ _ => ⟨rfl, rfl⟩) fun _ n u h => ?_
  obtain ⟨rfl, rfl⟩ := h
  refine Once.bind verify_once fun y n u h => ?_
  refine Once.bind (Q := fun _ _ u => u = []) (Once.drawE h.2) fun _ n u h => ?_
  refine Once.bind (Q := fun _ _ u => u = []) (Once.nowE fun _ => h) fun _ n u h => ?_
  refine Once.bind (Q := fun _ _ u => u = []) (Once.nowE fun _ => h) fun _ n u h => ?_
  subst h
  exact Once.bind (Q := fun _ _ _ => True) (Once.putE NewKey.nil trivial) fun _ _ _ _ => Once.pure trivial

theorem invalidProof_once {s : State} {hint : String} {n : Nat} {Q : α → Nat → List (String × State) → Prop} :
    Once R (NewKey fun _ => False) rng (Credential.invalidProof s hint : IProg α) n [] Q := by
  unfold Credential.invalidProof
  refine Once.bind (Q := fun _ _ u => u = []) (Once.drawE rfl) fun _ _ u hu => ?_
  refine Once.bind (Q := fun _ _ u => u = []) (Once.nowE fun _ => hu) fun _ _ u hu => ?_
  split
  · refine Once.bind (Q := fun _ _ u => u = []) (Once.nowE fun _ => hu) fun _ _ u hu => ?_
    subst hu
    exact Once.bind (Q := fun _ _ _ => True) (Once.putE NewKey.nil trivial) fun _ _ _ _ => Once.lift fun _ h => by cases h
  · exact Once.lift fun _ h => by cases h

theorem credential_once (hR : ∀ k s t, R k s → s.stage = .validated t → T t.accessToken) (hno : ∀ m, ¬ T (rng m))
    {P : Provider} {req : CredentialRequest} :
    Once R (NewKey fun _ => False) rng (credential P req) 0 [] (fun _ _ _ => True) := by
  unfold credential
  refine Once.bind (Q := fun s n u => R req.accessToken s ∧ u = []) (Once.getE fun _ h => ⟨h, rfl⟩) fun s n u h => ?_
  refine Once.bind (Q := fun ctx n u => ctx.state = s ∧ u = []) (Once.lift fun ctx hc => ⟨(Credential.context_ok.1 hc).1, h.2⟩)
    fun ctx n u hc => ?_
  have hT : ∀ t, ctx.state.stage = .validated t → T t.accessToken := fun t ht => hR _ _ t h.1 (by rw [← hc.1]; exact ht)
  obtain ⟨_, rfl⟩ := hc
  refine Once.bind (Q := fun _ _ u => u = []) ?_ fun did n u hu => ?_
  · unfold Credential.verify
    refine Once.bind (Q := fun _ _ u => u = []) (Once.nowE fun _ => rfl) fun now n u h => ?_
    refine Once.bind (Q := fun _ _ u => u = []) (Once.lift fun _ _ => h) fun _ n u h => ?_
    split
    · refine Once.bind (Q := fun _ _ u => u = []) (Once.nowE fun _ => h) fun _ n u h => ?_
      refine Once.bind (Q := fun _ _ u => u = []) (Once.lift fun _ _ => h) fun _ n u h => ?_
      split
      · exact Once.pure h
      · split
        · subst h; exact invalidProof_once
        · refine Once.bind (Q := fun _ _ u => u = []) (Once.lift fun _ _ => h) fun _ n u h => ?_
          split
          · subst h; exact invalidProof_once
          · exact Once.pure h
    · exact Once.lift fun _ h => by cases h
  subst hu
  unfold Credential.process
  refine Once.bind (Q := fun _ _ u => u = []) (Once.lift fun _ _ => rfl) fun ds n u hu => ?_
  subst hu
  split
  · unfold Credential.deferResponse
    refine Once.bind (Q := fun _ _ u => u = []) (Once.drawE rfl) fun _ _ u hu => ?_
    refine Once.bind (Q := fun _ _ u => u = []) (Once.nowE fun _ => hu) fun _ _ u hu => ?_
    subst hu
    exact Once.bind (Q := fun _ _ _ => True) (Once.putE NewKey.nil trivial) fun _ _ _ _ => Once.pure trivial
  · unfold Credential.issueResponse
    refine Once.bind (Q := fun _ _ u => u = []) (Once.nowE fun _ => rfl) fun _ _ u hu => ?_
    refine Once.bind (Q := fun _ _ u => u = []) (Once.lift fun _ _ => hu) fun _ _ u hu => ?_
    refine Once.bind (Q := fun _ _ u => u = []) (Once.nowE fun _ => hu) fun _ _ u hu => ?_
    split
    · rename_i t ht
      refine Once.bind (Q := fun _ _ u => u = []) (Once.drawE hu) fun _ _ u hu => ?_
      refine Once.bind (Q := fun _ _ u => u = []) (Once.nowE fun _ => hu) fun _ _ u hu => ?_
      subst hu
      refine Once.bind (Q := fun _ _ u => ∀ x ∈ u, T x.1) (Once.putE NewKey.nil ?_) fun _ n u hu => ?_
      · intro k hk
        rw [List.mem_singleton.1 hk]; exact hT t ht
      refine Once.bind (Q := fun k _ u => k = rng n ∧ ∀ x ∈ u, T x.1) (Once.drawE ⟨rfl, hu⟩) fun k _ u hu => ?_
      refine Once.bind (Q := fun _ _ _ => True) (Once.putE (.inr fun x hx hm => ?_) trivial) fun _ _ _ _ =>
        Once.bind (Q := fun _ _ _ => True) (Once.nowE fun _ => trivial) fun _ _ _ _ => Once.pure trivial
      exact hno n (hu.1 ▸ hm ▸ hu.2 _ hx)
    · exact Once.lift fun _ h => by cases h

theorem token_once {P : Provider} {req : TokenRequest} :
    Once R (NewKey fun _ => False) rng (token P req) 0 [] (fun _ _ _ => True) := by
  unfold token
  refine Once.bind (Q := fun _ _ u => u = []) (Once.getE fun _ _ => rfl) fun s n u h => ?_
  refine Once.bind (Q := fun _ _ u => u = []) (Once.purgeE h) fun _ n u h => ?_
  refine Once.bind (Q := fun _ _ u => u = []) (Once.nowE fun _ => h) fun _ n u h => ?_
  refine Once.bind (Q := fun _ _ u => u = []) (Once.lift fun _ _ => h) fun _ n u h => ?_
  unfold Token.process
  refine Once.bind (Q := fun _ _ u => u = []) (Once.lift fun _ _ => h) fun _ n u h => ?_
  refine Once.bind (Q := fun _ _ u => u = []) (Once.drawE h) fun k n u h => ?_
  refine Once.bind (Q := fun _ _ u => u = []) (Once.drawE h) fun _ n u h => ?_
  refine Once.bind (Q := fun _ _ u => u = []) (Once.nowE fun _ => h) fun _ n u h => ?_
  subst h
  exact Once.bind (Q := fun _ _ _ => True) (Once.putE NewKey.nil trivial) fun _ _ _ _ => Once.pure trivial

theorem deferred_once (hR : ∀ k s t, R k s → s.stage = .validated t → T t.accessToken) (hno : ∀ m, ¬ T (rng m))
    {P : Provider} {req : DeferredRequest} :
    Once R (NewKey fun _ => False) rng (deferred P req) 0 [] (fun _ _ _ => True) := by
  unfold deferred
  refine Once.bind (Q := fun _ n u => n = 0 ∧ u = []) (Once.getE fun _ _ => ⟨rfl, rfl⟩) fun s n u h => ?_
  refine Once.bind (Q := fun _ n u => n = 0 ∧ u = []) (Once.nowE fun _ => h) fun _ n u h => ?_
  refine Once.bind (Q := fun _ n u => n = 0 ∧ u = []) (Once.lift fun _ _ => h) fun _ n u h => ?_
  refine Once.bind (Q := fun _ n u => n = 0 ∧ u = []) (Once.lift fun _ _ => h) fun _ n u h => ?_
  refine Once.bind (Q := fun _ n u => n = 0 ∧ u = []) (Once.purgeE h) fun _ n u h => ?_
  obtain ⟨rfl, rfl⟩ := h
  refine Once.bind (credential_once hR hno) fun resp _ _ _ => ?_
  split
  · exact Once.lift fun _ h => by cases h
  · exact Once.pure trivial

end Once

theorem call_once {rng : Nat → Nat → String} (hf : FreshTokens rng) (calls : Nat → Call) (i : Nat) :
    Once (Placed rng calls) (NewKey fun _ => False) (rng i) (call (calls i).provider (calls i).req) 0 [] (fun _ _ _ => True) := by
  have hR : ∀ k s t, Placed rng calls k s → s.stage = .validated t → TokenKey rng calls t.accessToken := fun k s t h => h.1 t
  by_cases htok : ∃ r, (calls i).req = .token r
  · obtain ⟨r, hr⟩ := htok
    rw [hr]
    exact Once.bind token_once fun _ _ _ _ => Once.pure trivial
  · have hno : ∀ m, ¬ TokenKey rng calls (rng i m) := by
      rintro m ⟨j, n, r, hj, he⟩
      obtain ⟨rfl, _⟩ := hf.inj _ _ _ _ he
      exact htok ⟨r, hj⟩
    cases hreq : (calls i).req with
    | token r => exact absurd ⟨r, hreq⟩ htok
    | createOffer r =>
      exact Once.bind (createOffer_once fun n m h => (hf.inj _ _ _ _ h).2) fun _ _ _ _ => Once.pure trivial
    | authorize r => exact Once.bind authorize_once fun _ _ _ _ => Once.pure trivial
    | par r => exact Once.bind par_once fun _ _ _ _ => Once.pure trivial
    | credential r => exact Once.bind (credential_once hR hno) fun _ _ _ _ => Once.pure trivial
    | deferred r => exact Once.bind (deferred_once hR hno) fun _ _ _ _ => Once.pure trivial
    | credentialOffer r =>
      refine Once.bind (Q := fun _ _ _ => True) ?_ fun _ _ _ _ => Once.pure trivial
      unfold credentialOffer
      refine Once.bind (Q := fun _ _ _ => True) (Once.getE fun _ _ => trivial) fun _ _ _ _ => ?_
      refine Once.bind (Q := fun _ _ _ => True) (Once.purgeE trivial) fun _ _ _ _ => ?_
      refine Once.bind (Q := fun _ _ _ => True) (Once.nowE fun _ => trivial) fun _ _ _ _ => ?_
      refine Once.bind (Q := fun _ _ _ => True) (Once.lift fun _ _ => trivial) fun _ _ _ _ => ?_
      refine Once.bind (Q := fun _ _ _ => True) (Once.lift fun _ _ => trivial) fun _ _ _ _ => ?_
      exact Once.bind (Q := fun _ _ _ => True) (Once.lift fun _ _ => trivial) fun _ _ _ _ => Once.pure trivial
    | notification r =>
      refine Once.bind (Q := fun _ _ _ => True) ?_ fun _ _ _ _ => Once.pure trivial
      unfold notification
      refine Once.bind (Q := fun _ _ _ => True) (Once.getE fun _ _ => trivial) fun _ _ _ _ => ?_
      refine Once.bind (Q := fun _ _ _ => True) (Once.lift fun _ _ => trivial) fun _ _ _ _ => ?_
      exact Once.purgeE trivial
    | register r =>
      refine Once.bind (Q := fun _ _ _ => True) ?_ fun _ _ _ _ => Once.pure trivial
      unfold register
      refine Once.bind (Q := fun _ _ _ => True) (Once.getE fun _ _ => trivial) fun _ _ _ _ => ?_
      exact Once.lift fun _ _ => trivial
    | metadata c => exact Once.bind (Q := fun _ _ _ => True) (Once.lift fun _ _ => trivial) fun _ _ _ _ => Once.pure trivial
    | oauthServer c => exact Once.bind (Q := fun _ _ _ => True) (Once.lift fun _ _ => trivial) fun _ _ _ _ => Once.pure trivial

/-- The invariant of every schedule. -/
theorem pool_keys {rng : Nat → Nat → String} (hf : FreshTokens rng) (t0 : Int) (calls : Nat → Call) :
    Pool.Keys (Placed rng calls) (Places rng calls) (DrawnBy rng) (fun _ _ => True) (TokenKey rng calls) (Owns rng) rng
      (pool t0 calls) where
  safe := ⟨fun _ _ h => (nomatch h), call_places hf calls⟩
  once := fun i => (call_once hf calls i).weaken fun _ _ _ h => .inr (h.resolve_left id)
  key := fun _ _ h => nomatch h

/-- Every state in the store of any pool is well placed. -/
theorem pool_placed {rng : Nat → Nat → String} (hf : FreshTokens rng) (t0 : Int) (calls : Nat → Call) (s : List Event) {k : String}
    {v : State} (h : (Pool.exec rng (pool t0 calls) s).store k = some v) : Placed rng calls k v :=
  ((pool_keys hf t0 calls).exec (fun _ _ _ h => (h _ rfl).1) (fun _ _ _ h => (h _ rfl).2.1) (fun _ n => ⟨n, rfl⟩) s).safe.store _ _ h

/-- The request consumes key `c`: it redeems, fetches or polls `c`, or authorizes with `c` as issuer state. Specification; models no code. -/
def Req.Consumes (c : String) : Req → Prop
  | .token r => r.grantType.code = c
  | .credentialOffer r => r.id = c
  | .deferred r => r.transactionId = c
  | .authorize (.object r) => r.issuerState = some c
  | _ => False

theorem consumes_takes {c : String} {P : Provider} {req : Req} (h : req.Consumes c) : Takes c (call P req) := by
  cases req with
  | token r =>
    subst h
    refine Takes.bind ?_
    unfold token
    exact Takes.getE fun _ => Eats.purgeE.bind
  | credentialOffer r =>
    subst h
    refine Takes.bind ?_
    unfold credentialOffer
    exact Takes.getE fun _ => Eats.purgeE.bind
  | deferred r =>
    subst h
    refine Takes.bind ?_
    unfold deferred
    exact Takes.getE fun _ => Eats.after fun _ => Eats.after fun _ => Eats.after fun _ => Eats.purgeE.bind
  | authorize r =>
    cases r with
    | uri u => cases h
    | object r =>
      refine Takes.bind ?_
      have hs : r.issuerState = some c := h
      have hE : ∀ v : Dict AuthorizationDetail × Dict String, Eats c (Authorize.process P r v.1 v.2) := fun v => by
        unfold Authorize.process Authorize.purgeOffer
        rw [hs]
        exact Eats.after fun _ => Eats.after fun _ => Eats.after fun _ => Eats.after fun _ => Eats.purgeE.bind
      unfold authorize Authorize.resolve
      show Takes c (Prog.lift _ >>= fun iss => Authorize.verify P iss false r >>= fun v => Authorize.process P r v.1 v.2)
      refine Takes.lift fun iss => ?_
      unfold Authorize.verify Authorize.checkIssuerState
      rw [hs]
      simp only [bind_assoc]
      refine Takes.lift fun _ => Takes.lift fun _ => Takes.lift fun _ => Takes.getE fun _ => ?_
      exact Eats.after fun _ => Eats.after fun _ => Eats.after fun _ => Eats.after fun v => hE v
  | _ => cases h

end Verif.Issuer
