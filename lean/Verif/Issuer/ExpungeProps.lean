import Verif.Expunge
import Verif.Issuer.System
/-!
# A state store may throw away what has expired: C204, of the issuer
-/
namespace Verif.Issuer
open Prog

/-! ## Specification -/

/-- A step of a history, and which entries the store has thrown away by then, if they have expired. Specification; models no code. -/
structure Visit where
  step : Step
  gone : String → Bool

/-- What the issuer answers, call by call, over a store that keeps everything. Specification; models no code. -/
def answers (e : Env) (w : World State) : List Step → List (Res Resp)
  | [] => []
  | s :: rest => (step e w s).1 :: answers e (step e w s).2 rest

/-- Serving one step over a store that has thrown away entries that had expired for at least `late`, as of the time of the call. Specification; models no code. -/
def visit (e : Env) (late : Int) (w : World State) (v : Visit) : Res Resp × World State :=
  (call v.step.provider v.step.req).run e (expunge State.expiresAt late v.gone (World.wait w v.step.wait))

/-- What the issuer answers, call by call, over such a store. Specification; models no code. -/
def answersExpunging (e : Env) (late : Int) (w : World State) : List Visit → List (Res Resp)
  | [] => []
  | v :: rest => (visit e late w v).1 :: answersExpunging e late (visit e late w v).2 rest

/-- Both runs give the same answer, or both refuse. Specification; models no code. -/
def SameAnswer (a b : Res Resp) : Prop := a = b ∨ ∃ x y, a = .error x ∧ b = .error y

/-! ## Proofs -/

/-- What holds of stored states: a pushed request expires no later than its entry, and nothing is marked as issued. Machinery of the proofs; models no code. -/
def Sound (s : State) : Prop := (∀ r e, s.stage = .pushed r e → e ≤ s.expiresAt) ∧ ∀ vc, s.stage ≠ .issued vc

/-- Has expired for a second. Machinery of the proofs; models no code. -/
abbrev Old (t : Int) (s : State) : Prop := s.expiresAt + sec ≤ t

theorem old_expired {s : State} {t : Int} (h : Old t s) : s.isExpired t = true := by
  have h : s.expiresAt + 1000000000 ≤ t := h
  refine decide_eq_true ?_
  have e : s.expiresAt - t = -(t - s.expiresAt) := by omega
  show (s.expiresAt - t).tdiv 1000000000 < 0
  rw [e, Int.neg_tdiv, Int.tdiv_eq_ediv_of_nonneg (by omega)]
  omega

theorem sound_offered {s : Option String} {o : Offer} {x : Int} : Sound ⟨s, .offered o, x⟩ := ⟨fun _ _ h => (by cases h), fun _ h => (by cases h)⟩
theorem sound_pending {s : Option String} {o : CredentialOffer} {x : Int} : Sound ⟨s, .pending o, x⟩ := ⟨fun _ _ h => (by cases h), fun _ h => (by cases h)⟩
theorem sound_authorized {s : Option String} {o : Authorization} {x : Int} : Sound ⟨s, .authorized o, x⟩ := ⟨fun _ _ h => (by cases h), fun _ h => (by cases h)⟩
theorem sound_validated {s : Option String} {o : Token} {x : Int} : Sound ⟨s, .validated o, x⟩ := ⟨fun _ _ h => (by cases h), fun _ h => (by cases h)⟩
theorem sound_deferred {s : Option String} {i : String} {o : CredentialRequest} {x : Int} : Sound ⟨s, .deferred i o, x⟩ := ⟨fun _ _ h => (by cases h), fun _ h => (by cases h)⟩
theorem sound_pushed {s : Option String} {r : RequestObject} {x : Int} : Sound ⟨s, .pushed r x, x⟩ := ⟨fun _ _ h => (by cases h; exact Int.le_refl _), fun _ h => (by cases h)⟩

variable {t : Int}

theorem createOffer_tolerant {P : Provider} {req : CreateOfferRequest} : Tolerant t Sound (Old t) (createOffer P req) := by
  refine (Tolerant.lift _).bind fun iss => (Tolerant.lift _).bind fun srv => (Tolerant.lift _).bind fun _ => ?_
  refine Tolerant.drawE.bind fun code => (Tolerant.lift _).bind fun offer => Tolerant.bind ?_ fun tx => Tolerant.bind ?_ fun _ => ?_
  · unfold CreateOffer.txCode
    split
    · exact Tolerant.drawE.bind fun _ => Tolerant.pure _
    · exact Tolerant.pure _
  · unfold CreateOffer.saveOffer
    split
    · exact (Tolerant.lift _).bind fun _ => (Tolerant.lift _).bind fun _ => Tolerant.nowE.bind fun _ => Tolerant.putE sound_offered
    · exact Tolerant.pure _
  · unfold CreateOffer.respond
    split
    · exact Tolerant.pure _
    · exact Tolerant.drawE.bind fun _ => Tolerant.nowE.bind fun _ => (Tolerant.putE sound_pending).bind fun _ => Tolerant.pure _

theorem credentialOffer_tolerant {req : CredentialOfferRequest} : Tolerant t Sound (Old t) (credentialOffer req) := by
  refine Tolerant.got (fun s _ => ?_) fun s _ h => Doomed.purged (Doomed.timed ?_)
  · exact Tolerant.purgeE.bind fun _ => Tolerant.nowE.bind fun _ => (Tolerant.lift _).bind fun _ => (Tolerant.lift _).bind fun _ =>
      (Tolerant.lift _).bind fun _ => Tolerant.pure _
  · exact Doomed.lifted (t := t) (e := .invalidRequest "state expired") (by rw [old_expired h]; rfl)

theorem Authorize.verify_tolerant {P : Provider} {iss : Verif.Issuer} {isPar : Bool} {req : RequestObject} :
    Tolerant t Sound (Old t) (Authorize.verify P iss isPar req) := by
  refine (Tolerant.lift _).bind fun _ => (Tolerant.lift _).bind fun _ => (Tolerant.lift _).bind fun _ => Tolerant.bind ?_ fun _ => Tolerant.lift _
  unfold Authorize.checkIssuerState
  split
  · exact Tolerant.pure _
  · refine Tolerant.got (fun s _ => Tolerant.nowE.bind fun _ => (Tolerant.lift _).bind fun _ => Tolerant.lift _) fun s _ h => ?_
    exact Doomed.timed <| Doomed.lifted (t := t) (e := .invalidRequest "issuer state expired") (by rw [old_expired h]; rfl)

theorem authorize_tolerant {P : Provider} {req : AuthorizationRequest} : Tolerant t Sound (Old t) (authorize P req) := by
  refine Tolerant.bind ?_ fun r => (Tolerant.lift _).bind fun iss => Authorize.verify_tolerant.bind fun v => ?_
  · cases req with
    | object r => exact Tolerant.pure _
    | uri u =>
      refine Tolerant.got (fun s _ => (Tolerant.lift _).bind fun _ => Tolerant.nowE.bind fun _ => (Tolerant.lift _).bind fun _ => Tolerant.pure _) fun s hs h => ?_
      refine Doomed.ok fun p hp => Doomed.timed ?_
      refine Doomed.lifted (t := t) (e := .invalidRequest "`request_uri` has expired") ?_
      unfold Authorize.pushed at hp
      split at hp
      · rename_i r e he
        cases hp
        have h1 := hs.1 _ _ he
        have h2 : s.expiresAt + 1000000000 ≤ t := h
        have h3 : e < t := by omega
        simp [require, h3]
      · cases hp
  · refine (Tolerant.lift _).bind fun _ => Tolerant.nowE.bind fun _ => Tolerant.drawE.bind fun _ => (Tolerant.putE sound_authorized).bind fun _ =>
      Tolerant.bind ?_ fun _ => Tolerant.pure _
    unfold Authorize.purgeOffer
    split
    · exact Tolerant.pure _
    · exact Tolerant.purgeE

theorem par_tolerant {P : Provider} {req : RequestObject} : Tolerant t Sound (Old t) (par P req) := by
  refine (Tolerant.lift _).bind fun iss => Authorize.verify_tolerant.bind fun _ => fun _ => ⟨sound_pushed, trivial⟩

theorem token_tolerant {P : Provider} {req : TokenRequest} : Tolerant t Sound (Old t) (token P req) := by
  refine Tolerant.got (fun s _ => ?_) fun s _ h => Doomed.purged (Doomed.timed ?_)
  · exact Tolerant.purgeE.bind fun _ => Tolerant.nowE.bind fun _ => (Tolerant.lift _).bind fun _ => (Tolerant.lift _).bind fun _ => Tolerant.drawE.bind fun _ =>
      Tolerant.drawE.bind fun _ => Tolerant.nowE.bind fun _ => (Tolerant.putE sound_validated).bind fun _ => Tolerant.pure _
  · exact Doomed.lifted (t := t) (e := .invalidRequest "authorization state expired") (by simp only [Token.verify, old_expired h]; rfl)

theorem Credential.invalidProof_tolerant {α : Type} {s : State} {hint : String} : Tolerant t Sound (Old t) (Credential.invalidProof s hint : IProg α) := by
  refine Tolerant.drawE.bind fun _ => Tolerant.nowE.bind fun _ => ?_
  split
  · exact Tolerant.nowE.bind fun _ => (Tolerant.putE sound_validated).bind fun _ => Tolerant.lift _
  · exact Tolerant.lift _

theorem credential_tolerant {P : Provider} {req : CredentialRequest} : Tolerant t Sound (Old t) (credential P req) := by
  refine Tolerant.got (fun s _ => ?_) fun s _ h => Doomed.ok fun ctx hctx => Doomed.bind ?_
  · refine (Tolerant.lift _).bind fun ctx => Tolerant.bind ?_ fun did => (Tolerant.lift _).bind fun ds => ?_
    · refine Tolerant.nowE.bind fun _ => (Tolerant.lift _).bind fun _ => ?_
      split
      · refine Tolerant.nowE.bind fun _ => (Tolerant.lift _).bind fun _ => ?_
        split
        · exact Tolerant.pure _
        · split
          · exact Credential.invalidProof_tolerant
          · refine (Tolerant.lift _).bind fun _ => ?_
            split
            · exact Credential.invalidProof_tolerant
            · exact Tolerant.pure _
      · exact Tolerant.lift _
    · split
      · exact Tolerant.drawE.bind fun _ => Tolerant.nowE.bind fun _ => (Tolerant.putE sound_deferred).bind fun _ => Tolerant.pure _
      · refine Tolerant.nowE.bind fun _ => (Tolerant.lift _).bind fun _ => Tolerant.nowE.bind fun _ => ?_
        split
        · exact Tolerant.drawE.bind fun _ => Tolerant.nowE.bind fun _ => (Tolerant.putE sound_validated).bind fun _ => Tolerant.drawE.bind fun _ =>
            (Tolerant.putE sound_validated).bind fun _ => Tolerant.nowE.bind fun _ => Tolerant.pure _
        · exact Tolerant.lift _
  · have hs : ctx.state = s := by
      simp only [Credential.context, Bind.bind, Except.bind, Pure.pure, Except.pure] at hctx
      split at hctx
      · cases hctx
      · split at hctx
        · cases hctx
        · split at hctx
          · cases hctx
          · cases hctx; rfl
    subst hs
    exact Doomed.timed <| Doomed.lifted (t := t) (e := .invalidCredentialRequest "token state expired") (by rw [old_expired h]; rfl)

theorem deferred_tolerant {P : Provider} {req : DeferredRequest} : Tolerant t Sound (Old t) (deferred P req) := by
  refine Tolerant.got (fun s _ => ?_) fun s _ h => ?_
  · refine Tolerant.nowE.bind fun _ => (Tolerant.lift _).bind fun _ => (Tolerant.lift _).bind fun _ => Tolerant.purgeE.bind fun _ => credential_tolerant.bind fun r => ?_
    split
    · exact Tolerant.lift _
    · exact Tolerant.pure _
  · exact Doomed.timed <| Doomed.lifted (t := t) (e := .invalidRequest "state expired") (by rw [old_expired h]; rfl)

theorem notification_tolerant {req : NotificationRequest} : Tolerant t Sound (Old t) (notification req) := by
  refine Tolerant.got (fun s _ => (Tolerant.lift _).bind fun _ => Tolerant.purgeE) fun s hs h => ?_
  refine Doomed.lifted (t := t) (e := .serverError "issued state not found") ?_
  unfold issuedState
  split
  · rename_i vc hvc
    exact absurd hvc (hs.2 vc)
  · rfl

/-- All calls but registration tolerate that old entries are missing. -/
theorem call_tolerant {P : Provider} {req : Req} (h : ∀ r, req ≠ .register r) : Tolerant t Sound (Old t) (call P req) := by
  cases req with
  | createOffer r => exact createOffer_tolerant.bind fun _ => Tolerant.pure _
  | credentialOffer r => exact credentialOffer_tolerant.bind fun _ => Tolerant.pure _
  | par r => exact par_tolerant.bind fun _ => Tolerant.pure _
  | authorize r => exact authorize_tolerant.bind fun _ => Tolerant.pure _
  | token r => exact token_tolerant.bind fun _ => Tolerant.pure _
  | credential r => exact credential_tolerant.bind fun _ => Tolerant.pure _
  | deferred r => exact deferred_tolerant.bind fun _ => Tolerant.pure _
  | notification r => exact notification_tolerant.bind fun _ => Tolerant.pure _
  | register r => exact absurd rfl (h r)
  | metadata c => exact (Tolerant.lift _).bind fun _ => Tolerant.pure _
  | oauthServer c => exact (Tolerant.lift _).bind fun _ => Tolerant.pure _

/-- The two runs side by side. Machinery of the proofs; models no code. -/
structure Beside (w w' : World State) : Prop where
  now : w'.now = w.now
  drawn : w'.drawn = w.drawn
  store : Thinned State.expiresAt sec w.now w.store w'.store
  sound : ∀ k v, w.store k = some v → Sound v

/-- A registration reads one entry and changes nothing in the store. -/
theorem register_run {P : Provider} {e : Env} (hf : ∀ n, e.fault n = .ok) {r : RegistrationRequest} {w : World State} :
    (call P (.register r)).run e w = (match w.store r.accessToken with
      | none => .error (.serverError "State not found")
      | some _ => (orErr (P.register r.client) (.serverError "Registration failed")).map Resp.register, { w with ops := w.ops + 1 }) := by
  show (Prog.run e (Prog.get r.accessToken _) w) = _
  simp only [Prog.run, hf, getRes]
  cases w.store r.accessToken with
  | none => rfl
  | some v =>
    cases hp : P.register r.client with
    | none => simp [Prog.bind, Prog.lift, orErr, Except.map, Prog.run]
    | some c => simp [Prog.bind, Prog.lift, orErr, Except.map, Prog.run, Pure.pure]

theorem Beside.step {e : Env} (hf : ∀ n, e.fault n = .ok) {w w' : World State} (h : Beside w w') (v : Visit) :
    Beside (step e w v.step).2 (visit e sec w' v).2 ∧ (∀ r, (visit e sec w' v).1 = .ok r → (Issuer.step e w v.step).1 = .ok r) ∧
    ((∀ r, v.step.req ≠ .register r) → SameAnswer (visit e sec w' v).1 (Issuer.step e w v.step).1) := by
  have hn : (expunge State.expiresAt sec v.gone (World.wait w' v.step.wait)).now = (World.wait w v.step.wait).now := congrArg (· + (v.step.wait : Int)) h.now
  have hs : Thinned State.expiresAt sec (World.wait w v.step.wait).now (World.wait w v.step.wait).store (expunge State.expiresAt sec v.gone (World.wait w' v.step.wait)).store := by
    rw [← hn]
    refine Thinned.expunge (w := World.wait w' v.step.wait) (h.store.mono ?_)
    show w.now ≤ w'.now + (v.step.wait : Int)
    have := h.now
    omega
  by_cases hreg : ∃ r, v.step.req = .register r
  · obtain ⟨r, hr⟩ := hreg
    refine ⟨?_, fun x hx => ?_, fun hno => absurd hr (hno r)⟩
    · unfold Issuer.step visit
      rw [hr, register_run hf, register_run hf]
      exact ⟨hn, h.drawn, hs, h.sound⟩
    · unfold visit at hx
      unfold Issuer.step
      rw [hr, register_run hf] at hx ⊢
      rcases hs r.accessToken with he | ⟨he, _⟩
      · rw [he] at hx; exact hx
      · rw [he] at hx; cases hx
  · have hno : ∀ r, v.step.req ≠ .register r := fun r hr => hreg ⟨r, hr⟩
    obtain ⟨h1, h2, h3, h4, h5, h6⟩ := Tolerant.run (w := World.wait w v.step.wait) (w' := expunge State.expiresAt sec v.gone (World.wait w' v.step.wait)) hf hn h.drawn hs h.sound
      (call_tolerant (P := v.step.provider) hno)
    refine ⟨⟨h3.trans h2.symm, h4, ?_, h6⟩, fun r hr => ?_, fun _ => ?_⟩
    · unfold Issuer.step
      rw [h2]
      exact h5
    · rcases h1 with h1 | ⟨x, y, _, hy⟩
      · exact h1.symm.trans hr
      · cases hy.symm.trans hr
    · rcases h1 with h1 | ⟨x, y, hx, hy⟩
      · exact .inl h1
      · exact .inr ⟨y, x, hy, hx⟩

theorem Beside.answers {e : Env} (hf : ∀ n, e.fault n = .ok) (vs : List Visit) {w w' : World State} (h : Beside w w') (i : Nat) (v : Visit) (hv : vs[i]? = some v) :
    ∃ a b, (answersExpunging e sec w' vs)[i]? = some a ∧ (Issuer.answers e w (vs.map (·.step)))[i]? = some b ∧
      (∀ r, a = .ok r → b = .ok r) ∧ ((∀ r, v.step.req ≠ .register r) → SameAnswer a b) := by
  induction vs generalizing w w' i with
  | nil => cases hv
  | cons u us ih =>
    obtain ⟨h1, h2, h3⟩ := h.step hf u
    cases i with
    | zero => cases hv; exact ⟨_, _, rfl, rfl, h2, h3⟩
    | succ i => exact ih h1 i hv

/-! ## C204 -/

/-- **C204** (partial): a state store may throw away entries one second after the expiry it was given for them, and nobody can tell. Take any history of calls to the
issuer and any choice, before each call, of such entries that are gone by then. Call by call, the issuer answers as over a store that keeps everything, with the same
response, or refuses both times. Only registration may be refused where a store that keeps everything would have it succeed; it is never the other way round.
Missing to the full property: the last second (see `C204_violated_last_second`) and registration (see `C204_violated_registration`). -/
theorem C204_may_expunge_partial {e : Env} (hf : ∀ n, e.fault n = .ok) (t0 : Int) (vs : List Visit) (i : Nat) (v : Visit) (hv : vs[i]? = some v) :
    ∃ a b, (answersExpunging e sec (start t0) vs)[i]? = some a ∧ (answers e (start t0) (vs.map (·.step)))[i]? = some b ∧
      (∀ r, a = .ok r → b = .ok r) ∧ ((∀ r, v.step.req ≠ .register r) → SameAnswer a b) :=
  Beside.answers hf vs ⟨rfl, rfl, fun _ => .inl rfl, fun _ _ h => by cases h⟩ i v hv

end Verif.Issuer
