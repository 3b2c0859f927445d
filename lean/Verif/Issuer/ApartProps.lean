import Verif.Apart
import Verif.Issuer.OverlapDemo
/-!
# People who use the issuer at the same time do not notice each other: C175
-/
namespace Verif.Issuer
open Prog Pool

/-! ## Specification -/

/-- What a request presents: a code, token, state or identifier. Specification; models no code. -/
def Req.Presents : Req → String → Prop
  | .credentialOffer r, k => k = r.id
  | .par r, k => r.issuerState = some k
  | .authorize (.object r), k => r.issuerState = some k
  | .authorize (.uri u), k => k = u
  | .token r, k => k = r.grantType.code
  | .credential r, k => k = r.accessToken
  | .deferred r, k => k = r.transactionId ∨ k = r.accessToken
  | .notification r, k => k = r.notificationId
  | .register r, k => k = r.accessToken
  | .createOffer _, _ => False
  | .metadata _, _ => False
  | .oauthServer _, _ => False

/-- Call `i` has to do with `k`: its request presents it, or the issuer has drawn it for this call. Specification; models no code. -/
def Concerns (rng : Nat → Nat → String) (calls : Nat → Call) (i : Nat) (k : String) : Prop := (calls i).req.Presents k ∨ Owns rng i k

/-! ## Proofs -/

/-- The entries that a stored state leads to are in `K`. Machinery of the proofs; models no code. -/
def LeadsTo (K : String → Prop) (s : State) : Prop :=
  (∀ r e k, s.stage = .pushed r e → r.issuerState = some k → K k) ∧ ∀ t, s.stage = .validated t → K t.accessToken

variable {K D : String → Prop}

theorem createOffer_stays {P : Provider} {req : CreateOfferRequest} (hD : ∀ s, D s → K s) :
    Stays K (LeadsTo K) D (createOffer P req) (fun _ => True) := by
  refine Stays.bind (Q := fun _ => True) (Stays.lift fun _ _ => trivial) fun iss _ => ?_
  refine Stays.bind (Q := fun _ => True) (Stays.lift fun _ _ => trivial) fun srv _ => ?_
  refine Stays.bind (Q := fun _ => True) (Stays.lift fun _ _ => trivial) fun _ _ => ?_
  refine Stays.bind (Q := K) (Stays.drawE hD) fun code hc => ?_
  refine Stays.bind (Q := fun o => CreateOffer.credentialOffer iss req code = .ok o) (Stays.lift fun _ h => h) fun offer ho => ?_
  refine Stays.bind (Q := fun _ => True) ?_ fun tx _ => ?_
  · unfold CreateOffer.txCode
    split
    · exact Stays.bind (Q := fun _ => True) (Stays.drawE fun _ _ => trivial) fun _ _ => Stays.pure trivial
    · exact Stays.pure trivial
  refine Stays.bind (Q := fun _ => True) ?_ fun _ _ => ?_
  · unfold CreateOffer.saveOffer
    split
    · refine Stays.bind (Q := fun _ => True) (Stays.lift fun _ _ => trivial) fun items _ => ?_
      refine Stays.bind (Q := fun k => CreateOffer.stateKey offer.grants = .ok k) (Stays.lift fun _ h => h) fun k hk => ?_
      refine Stays.bind (Q := fun _ => True) (Stays.nowE fun _ => trivial) fun now _ => ?_
      cases CreateOffer.stateKey_of ho hk
      exact Stays.putE hc ⟨fun _ _ _ h => (nomatch h), fun _ h => (nomatch h)⟩ trivial
    · exact Stays.pure trivial
  · unfold CreateOffer.respond
    split
    · exact Stays.pure trivial
    · refine Stays.bind (Q := K) (Stays.drawE hD) fun code hc => ?_
      refine Stays.bind (Q := fun _ => True) (Stays.nowE fun _ => trivial) fun now _ => ?_
      refine Stays.bind (Q := fun _ => True) (Stays.putE hc ⟨fun _ _ _ h => (nomatch h), fun _ h => (nomatch h)⟩ trivial) fun _ _ => Stays.pure trivial

theorem credentialOffer_stays {req : CredentialOfferRequest} (hK : K req.id) :
    Stays K (LeadsTo K) D (credentialOffer req) (fun _ => True) :=
  Stays.bind (Q := fun _ => True) (Stays.getE hK fun _ _ => trivial) fun _ _ =>
  Stays.bind (Q := fun _ => True) (Stays.purgeE hK trivial) fun _ _ =>
  Stays.bind (Q := fun _ => True) (Stays.nowE fun _ => trivial) fun _ _ =>
  Stays.bind (Q := fun _ => True) (Stays.lift fun _ _ => trivial) fun _ _ =>
  Stays.bind (Q := fun _ => True) (Stays.lift fun _ _ => trivial) fun _ _ =>
  Stays.bind (Q := fun _ => True) (Stays.lift fun _ _ => trivial) fun _ _ => Stays.pure trivial

theorem Authorize.verify_stays {P : Provider} {iss : Verif.Issuer} {isPar : Bool} {req : RequestObject} (hK : ∀ k, req.issuerState = some k → K k) :
    Stays K (LeadsTo K) D (Authorize.verify P iss isPar req) (fun _ => True) := by
  refine Stays.bind (Q := fun _ => True) (Stays.lift fun _ _ => trivial) fun client _ => ?_
  refine Stays.bind (Q := fun _ => True) (Stays.lift fun _ _ => trivial) fun server _ => ?_
  refine Stays.bind (Q := fun _ => True) (Stays.lift fun _ _ => trivial) fun _ _ => ?_
  refine Stays.bind (Q := fun _ => True) ?_ fun _ _ => Stays.lift fun _ _ => trivial
  unfold Authorize.checkIssuerState
  split
  · exact Stays.pure trivial
  · rename_i k hk
    exact Stays.bind (Q := fun _ => True) (Stays.getE (hK k hk) fun _ _ => trivial) fun _ _ =>
      Stays.bind (Q := fun _ => True) (Stays.nowE fun _ => trivial) fun _ _ =>
      Stays.bind (Q := fun _ => True) (Stays.lift fun _ _ => trivial) fun _ _ => Stays.lift fun _ _ => trivial

theorem authorize_stays {P : Provider} {req : AuthorizationRequest} (hD : ∀ s, D s → K s)
    (hK : ∀ k, (Req.authorize req).Presents k → K k) : Stays K (LeadsTo K) D (authorize P req) (fun _ => True) := by
  refine Stays.bind (Q := fun r => ∀ k, r.2.issuerState = some k → K k) ?_ fun r hr => ?_
  · cases req with
    | object r => exact Stays.pure fun k h => hK k h
    | uri u =>
      refine Stays.bind (Q := LeadsTo K) (Stays.getE (hK u rfl) fun _ h => h) fun s hs => ?_
      refine Stays.bind (Q := fun p => ∀ k, p.1.issuerState = some k → K k) (Stays.lift fun p hp k h => ?_) fun p hp => ?_
      · unfold Authorize.pushed at hp
        split at hp
        · rename_i r e he
          cases hp
          exact hs.1 _ _ _ he h
        · cases hp
      · exact Stays.bind (Q := fun _ => True) (Stays.nowE fun _ => trivial) fun _ _ =>
          Stays.bind (Q := fun _ => True) (Stays.lift fun _ _ => trivial) fun _ _ => Stays.pure hp
  · refine Stays.bind (Q := fun _ => True) (Stays.lift fun _ _ => trivial) fun iss _ => ?_
    refine Stays.bind (Q := fun _ => True) (Authorize.verify_stays hr) fun v _ => ?_
    refine Stays.bind (Q := fun _ => True) (Stays.lift fun _ _ => trivial) fun items _ => ?_
    refine Stays.bind (Q := fun _ => True) (Stays.nowE fun _ => trivial) fun now _ => ?_
    refine Stays.bind (Q := K) (Stays.drawE hD) fun code hc => ?_
    refine Stays.bind (Q := fun _ => True) (Stays.putE hc ⟨fun _ _ _ h => (nomatch h), fun _ h => (nomatch h)⟩ trivial) fun _ _ => ?_
    refine Stays.bind (Q := fun _ => True) ?_ fun _ _ => Stays.pure trivial
    unfold Authorize.purgeOffer
    split
    · exact Stays.pure trivial
    · rename_i k hk
      exact Stays.purgeE (hr k hk) trivial

theorem par_stays {P : Provider} {req : RequestObject} (hD : ∀ s, D s → K (urn ++ s)) (hK : ∀ k, req.issuerState = some k → K k) :
    Stays K (LeadsTo K) D (par P req) (fun _ => True) := by
  refine Stays.bind (Q := fun _ => True) (Stays.lift fun _ _ => trivial) fun iss _ => ?_
  refine Stays.bind (Q := fun _ => True) (Authorize.verify_stays hK) fun v _ => ?_
  refine Stays.bind (Q := fun s => K (urn ++ s)) (Stays.drawE hD) fun tok ht => ?_
  refine Stays.bind (Q := fun _ => True) (Stays.nowE fun _ => trivial) fun _ _ => ?_
  refine Stays.bind (Q := fun _ => True) (Stays.nowE fun _ => trivial) fun _ _ => ?_
  refine Stays.bind (Q := fun _ => True) (Stays.putE ht ⟨fun r e k h hk => ?_, fun _ h => (nomatch h)⟩ trivial) fun _ _ => Stays.pure trivial
  cases h
  exact hK k hk

theorem token_stays {P : Provider} {req : TokenRequest} (hD : ∀ s, D s → K s) (hK : K req.grantType.code) :
    Stays K (LeadsTo K) D (token P req) (fun _ => True) := by
  refine Stays.bind (Q := fun _ => True) (Stays.getE hK fun _ _ => trivial) fun s _ => ?_
  refine Stays.bind (Q := fun _ => True) (Stays.purgeE hK trivial) fun _ _ => ?_
  refine Stays.bind (Q := fun _ => True) (Stays.nowE fun _ => trivial) fun _ _ => ?_
  refine Stays.bind (Q := fun _ => True) (Stays.lift fun _ _ => trivial) fun _ _ => ?_
  refine Stays.bind (Q := fun _ => True) (Stays.lift fun _ _ => trivial) fun items _ => ?_
  refine Stays.bind (Q := K) (Stays.drawE hD) fun at' ha => ?_
  refine Stays.bind (Q := fun _ => True) (Stays.drawE fun _ _ => trivial) fun n _ => ?_
  refine Stays.bind (Q := fun _ => True) (Stays.nowE fun _ => trivial) fun _ _ => ?_
  refine Stays.bind (Q := fun _ => True) (Stays.putE ha ⟨fun _ _ _ h => (nomatch h), fun t h => ?_⟩ trivial) fun _ _ => Stays.pure trivial
  cases h
  exact ha

theorem Credential.invalidProof_stays {α : Type} {s : State} {hint : String} {Q : α → Prop} (hs : LeadsTo K s) :
    Stays K (LeadsTo K) D (Credential.invalidProof s hint : IProg α) Q := by
  refine Stays.bind (Q := fun _ => True) (Stays.drawE fun _ _ => trivial) fun n _ => ?_
  refine Stays.bind (Q := fun _ => True) (Stays.nowE fun _ => trivial) fun _ _ => ?_
  split
  · rename_i t ht
    refine Stays.bind (Q := fun _ => True) (Stays.nowE fun _ => trivial) fun _ _ => ?_
    refine Stays.bind (Q := fun _ => True) (Stays.putE (hs.2 t ht) ⟨fun _ _ _ h => (nomatch h), fun t' h => ?_⟩ trivial) fun _ _ =>
      Stays.lift fun _ h => (nomatch h)
    cases h
    exact hs.2 t ht
  · exact Stays.lift fun _ h => (nomatch h)

theorem Credential.verify_stays {P : Provider} {ctx : Credential.Ctx} {req : CredentialRequest} (hs : LeadsTo K ctx.state) :
    Stays K (LeadsTo K) D (Credential.verify P ctx req) (fun _ => True) := by
  refine Stays.bind (Q := fun _ => True) (Stays.nowE fun _ => trivial) fun _ _ => ?_
  refine Stays.bind (Q := fun _ => True) (Stays.lift fun _ _ => trivial) fun _ _ => ?_
  split
  · refine Stays.bind (Q := fun _ => True) (Stays.nowE fun _ => trivial) fun _ _ => ?_
    refine Stays.bind (Q := fun _ => True) (Stays.lift fun _ _ => trivial) fun _ _ => ?_
    split
    · exact Stays.pure trivial
    · split
      · exact Credential.invalidProof_stays hs
      · refine Stays.bind (Q := fun _ => True) (Stays.lift fun _ _ => trivial) fun _ _ => ?_
        split
        · exact Credential.invalidProof_stays hs
        · exact Stays.pure trivial
  · exact Stays.lift fun _ h => (nomatch h)

theorem credential_stays {P : Provider} {req : CredentialRequest} (hD : ∀ s, D s → K s) (hK : K req.accessToken) :
    Stays K (LeadsTo K) D (credential P req) (fun _ => True) := by
  refine Stays.bind (Q := LeadsTo K) (Stays.getE hK fun _ h => h) fun s hs => ?_
  refine Stays.bind (Q := fun c => c.state = s) (Stays.lift fun c hc => ?_) fun ctx hctx => ?_
  · simp only [Credential.context, Bind.bind, Except.bind, Pure.pure, Except.pure] at hc
    split at hc
    · cases hc
    · split at hc
      · cases hc
      · split at hc
        · cases hc
        · cases hc; rfl
  subst hctx
  refine Stays.bind (Q := fun _ => True) (Credential.verify_stays hs) fun did _ => ?_
  refine Stays.bind (Q := fun _ => True) (Stays.lift fun _ _ => trivial) fun ds _ => ?_
  split
  · refine Stays.bind (Q := K) (Stays.drawE hD) fun txn ht => ?_
    refine Stays.bind (Q := fun _ => True) (Stays.nowE fun _ => trivial) fun _ _ => ?_
    exact Stays.bind (Q := fun _ => True) (Stays.putE ht ⟨fun _ _ _ h => (nomatch h), fun _ h => (nomatch h)⟩ trivial) fun _ _ => Stays.pure trivial
  · refine Stays.bind (Q := fun _ => True) (Stays.nowE fun _ => trivial) fun _ _ => ?_
    refine Stays.bind (Q := fun _ => True) (Stays.lift fun _ _ => trivial) fun _ _ => ?_
    refine Stays.bind (Q := fun _ => True) (Stays.nowE fun _ => trivial) fun _ _ => ?_
    split
    · rename_i t ht
      have hk := hs.2 t ht
      refine Stays.bind (Q := fun _ => True) (Stays.drawE fun _ _ => trivial) fun n _ => ?_
      refine Stays.bind (Q := fun _ => True) (Stays.nowE fun _ => trivial) fun _ _ => ?_
      refine Stays.bind (Q := fun _ => True) (Stays.putE hk ⟨fun _ _ _ h => (nomatch h), fun t' h => ?_⟩ trivial) fun _ _ => ?_
      · cases h; exact hk
      refine Stays.bind (Q := K) (Stays.drawE hD) fun nid hn => ?_
      refine Stays.bind (Q := fun _ => True) (Stays.putE hn ⟨fun _ _ _ h => (nomatch h), fun t' h => ?_⟩ trivial) fun _ _ => ?_
      · cases h; exact hk
      exact Stays.bind (Q := fun _ => True) (Stays.nowE fun _ => trivial) fun _ _ => Stays.pure trivial
    · exact Stays.lift fun _ h => (nomatch h)

theorem deferred_stays {P : Provider} {req : DeferredRequest} (hD : ∀ s, D s → K s) (hK : K req.transactionId) (hA : K req.accessToken) :
    Stays K (LeadsTo K) D (deferred P req) (fun _ => True) := by
  refine Stays.bind (Q := fun _ => True) (Stays.getE hK fun _ _ => trivial) fun s _ => ?_
  refine Stays.bind (Q := fun _ => True) (Stays.nowE fun _ => trivial) fun _ _ => ?_
  refine Stays.bind (Q := fun _ => True) (Stays.lift fun _ _ => trivial) fun _ _ => ?_
  refine Stays.bind (Q := fun _ => True) (Stays.lift fun _ _ => trivial) fun saved _ => ?_
  refine Stays.bind (Q := fun _ => True) (Stays.purgeE hK trivial) fun _ _ => ?_
  refine Stays.bind (Q := fun _ => True) (credential_stays hD hA) fun resp _ => ?_
  split
  · exact Stays.lift fun _ h => (nomatch h)
  · exact Stays.pure trivial

/-- Every call stays with the entries that it names and those that it draws. -/
theorem call_stays {P : Provider} {req : Req} (hD : ∀ s, D s → K s ∧ K (urn ++ s)) (hK : ∀ k, req.Presents k → K k) :
    Stays K (LeadsTo K) D (call P req) (fun _ => True) := by
  have hd : ∀ s, D s → K s := fun s h => (hD s h).1
  cases req with
  | createOffer r => exact Stays.bind (createOffer_stays hd) fun _ _ => Stays.pure trivial
  | credentialOffer r => exact Stays.bind (credentialOffer_stays (hK _ rfl)) fun _ _ => Stays.pure trivial
  | par r => exact Stays.bind (par_stays (fun s h => (hD s h).2) fun k h => hK k h) fun _ _ => Stays.pure trivial
  | authorize r => exact Stays.bind (authorize_stays hd hK) fun _ _ => Stays.pure trivial
  | token r => exact Stays.bind (token_stays hd (hK _ rfl)) fun _ _ => Stays.pure trivial
  | credential r => exact Stays.bind (credential_stays hd (hK _ rfl)) fun _ _ => Stays.pure trivial
  | deferred r => exact Stays.bind (deferred_stays hd (hK _ (.inl rfl)) (hK _ (.inr rfl))) fun _ _ => Stays.pure trivial
  | notification r =>
    refine Stays.bind (Q := fun _ => True) ?_ fun _ _ => Stays.pure trivial
    exact Stays.bind (Q := fun _ => True) (Stays.getE (hK _ rfl) fun _ _ => trivial) fun _ _ =>
      Stays.bind (Q := fun _ => True) (Stays.lift fun _ _ => trivial) fun _ _ => Stays.purgeE (hK _ rfl) trivial
  | register r =>
    refine Stays.bind (Q := fun _ => True) ?_ fun _ _ => Stays.pure trivial
    exact Stays.bind (Q := fun _ => True) (Stays.getE (hK _ rfl) fun _ _ => trivial) fun _ _ => Stays.lift fun _ _ => trivial
  | metadata c => exact Stays.bind (Q := fun _ => True) (Stays.lift fun _ _ => trivial) fun _ _ => Stays.pure trivial
  | oauthServer c => exact Stays.bind (Q := fun _ => True) (Stays.lift fun _ _ => trivial) fun _ _ => Stays.pure trivial

/-! ## C175 -/

variable {rng : Nat → Nat → String} {calls : Nat → Call} {t0 : Int}

/-- **C175**: people who share no code, token or identifier do not affect each other, however their requests overlap and break off. Take any set of requests such that
nothing that one of them presents or is given is presented by or given to a request outside the set. Whether the requests in the set are answered, with what, and what
the issuer keeps for them, is the same as if the requests outside it were never served. -/
theorem C175_strangers_do_not_interfere (A : Nat → Bool)
    (hd : ∀ i j k, A i = true → A j = false → Concerns rng calls i k → ¬ Concerns rng calls j k) (s : List Event) :
    (∀ i r, A i = true → (((pool t0 calls).exec rng s).Answered i r ↔ ((pool t0 calls).exec rng (s.filter (concerns A))).Answered i r)) ∧
    ∀ i k, A i = true → Concerns rng calls i k →
      ((pool t0 calls).exec rng s).store k = ((pool t0 calls).exec rng (s.filter (concerns A))).store k := by
  let K : String → Prop := fun k => ∃ i, A i = true ∧ Concerns rng calls i k
  have h0 : Alike A K (LeadsTo K) (LeadsTo fun k => ¬ K k) (fun i s => ∃ n, s = rng i n) (pool t0 calls) (pool t0 calls) :=
    { now := rfl
      prog := fun _ _ => rfl
      drawn := fun _ _ => rfl
      store := fun _ _ => rfl
      inside := fun _ _ _ h => nomatch h
      outside := fun _ _ _ h => nomatch h
      mine := fun i hi => call_stays (fun s ⟨n, hn⟩ => ⟨⟨i, hi, .inr ⟨n, .inl hn⟩⟩, ⟨i, hi, .inr ⟨n, .inr (by rw [hn])⟩⟩⟩) fun k hk => ⟨i, hi, .inl hk⟩
      others := fun j hj => call_stays
        (fun s ⟨n, hn⟩ => ⟨fun ⟨i, hi, h⟩ => hd i j _ hi hj h (.inr ⟨n, .inl hn⟩), fun ⟨i, hi, h⟩ => hd i j _ hi hj h (.inr ⟨n, .inr (by rw [hn])⟩)⟩)
        fun k hk ⟨i, hi, h⟩ => hd i j k hi hj h (.inl hk) }
  have h := h0.exec (rng := rng) (fun i n => ⟨n, rfl⟩) s
  refine ⟨fun i r hi => ?_, fun i k hi hk => h.store k ⟨i, hi, hk⟩⟩
  unfold Pool.Answered
  rw [h.prog i hi]

/-- **C175**: with tokens that never repeat, it is enough that the requests in the set present only what the issuer gave to requests in the set, and that the requests
outside present nothing of that. What those outside present instead, such as guesses, codes of their own or invented ones, does not matter. -/
theorem C175_keep_your_tokens (hf : FreshTokens rng) (A : Nat → Bool) (hin : ∀ i k, A i = true → (calls i).req.Presents k → ∃ j, A j = true ∧ Owns rng j k)
    (hout : ∀ i j k, A i = false → (calls i).req.Presents k → A j = true → ¬ Owns rng j k) (s : List Event) :
    (∀ i r, A i = true → (((pool t0 calls).exec rng s).Answered i r ↔ ((pool t0 calls).exec rng (s.filter (concerns A))).Answered i r)) ∧
    ∀ i k, A i = true → Owns rng i k → ((pool t0 calls).exec rng s).store k = ((pool t0 calls).exec rng (s.filter (concerns A))).store k := by
  have h := C175_strangers_do_not_interfere (t0 := t0) (rng := rng) (calls := calls) A ?_ s
  · exact ⟨h.1, fun i k hi hk => h.2 i k hi (.inr hk)⟩
  · intro i j k hi hj hc hc'
    have own : ∃ i, A i = true ∧ Owns rng i k := hc.elim (hin i k hi) fun h => ⟨i, hi, h⟩
    obtain ⟨i', hi', ho⟩ := own
    rcases hc' with h | h
    · exact hout j i' k hj h hi' ho
    · rw [Owns.unique hf ho h, hj] at hi'
      cases hi'

namespace Demo

/-- Calls 0 and 2 make an offer each; call 1 redeems the code of the first, call 3 that of the second, and call 4 tries an invented one. Example; models no code. -/
def two : Nat → Call
  | 0 => ⟨strict, .createOffer offerReq⟩
  | 1 => ⟨strict, .token (tokenReq (tokens 0 0))⟩
  | 2 => ⟨strict, .createOffer offerReq⟩
  | 3 => ⟨strict, .token (tokenReq (tokens 2 0))⟩
  | 4 => ⟨strict, .token (tokenReq "guess")⟩
  | _ => ⟨strict, .metadata "http://vercre.io"⟩

/-- The two people take turns, and somebody guesses. Example; models no code. -/
def mixed : List Event := (List.range 12).flatMap fun _ => [.run 0 .ok, .run 2 .ok, .run 4 .ok]

theorem two_in : ∀ i k, (decide (i < 2)) = true → (two i).req.Presents k → ∃ j, decide (j < 2) = true ∧ Owns tokens j k := by
  intro i k hi hk
  match i, hi with
  | 0, _ => exact hk.elim
  | 1, _ => exact ⟨0, rfl, 0, .inl hk⟩

theorem two_out : ∀ i j k, (decide (i < 2)) = false → (two i).req.Presents k → decide (j < 2) = true → ¬ Owns tokens j k := by
  intro i j k hi hk hj ho
  have hj : j < 2 := of_decide_eq_true hj
  match i with
  | 0 | 1 => cases hi
  | 2 => exact hk.elim
  | 3 =>
    have := Owns.unique tokens_fresh ho (show Owns tokens 2 k from ⟨0, .inl hk⟩)
    omega
  | 4 =>
    have hg : k = "guess" := hk
    subst hg
    obtain ⟨n, h | h⟩ := ho <;>
    · have h := congrArg String.toList h
      match j with
      | 0 | 1 => simp [tokens, urn_toList, List.replicate_succ] at h
  | _ + 5 => exact hk.elim

/-- **C175** applies: the first person gets a token, whatever the second and the guesser do meanwhile, and it is the token that they would have got alone. -/
example : ∃ r, ((pool 0 two).exec tokens (mixed ++ all 1 ++ all 3)).Answered 1 (.ok (.token r)) ∧ r.accessToken = tokens 1 0 :=
  ⟨_, ((C175_keep_your_tokens tokens_fresh _ two_in two_out (mixed ++ all 1 ++ all 3)).1 1 _ rfl).2 rfl, rfl⟩

/-- It is needed that those outside do not have the code: with it they can take the token, and its owner gets none. -/
example : ∃ e, ((pool 0 Demo.calls).exec tokens (all 0 ++ all 2 ++ all 1)).Answered 1 (.error e) := ⟨_, rfl⟩

end Demo
end Verif.Issuer
