import Verif.Holder.Spec
/-!
# What each wallet endpoint does, in one statement each
-/
namespace Verif.Holder
open Verif HProg

/-- The call failed, and not because a write failed. -/
def Fails {α : Type} (r : HRes α) : Prop := ∃ x, r = .error x ∧ x ≠ .store

theorem Fails.of {α β : Type} {r : HRes α} {x : HErr} (h : NoStore r) (hr : r = .error x) : Fails (.error x : HRes β) :=
  ⟨x, rfl, by subst hr; exact h.ne⟩

theorem Fails.ne_ok {α : Type} {r : HRes α} {a : α} (h : Fails r) : r ≠ .ok a := by
  obtain ⟨x, rfl, _⟩ := h; intro h'; cases h'

section
variable {α β : Type} {e : HEnv} {w w' : HWorld} {r : HRes β}

theorem lift_step {x : HRes α} {f : α → HProg β} (hx : NoStore x) (h : (lift x >>= f).run e w = (r, w')) :
    (Fails r ∧ w' = w) ∨ ∃ a, x = .ok a ∧ (f a).run e w = (r, w') := by
  rcases bind_inv h with ⟨y, h1, rfl⟩ | ⟨a, w1, h1, h2⟩
  · obtain ⟨h3, rfl⟩ := lift_inv h1
    exact .inl ⟨Fails.of hx h3.symm, rfl⟩
  · obtain ⟨h3, rfl⟩ := lift_inv h1
    exact .inr ⟨a, h3.symm, h2⟩

theorem check_step {c : Bool} {why : String} {f : Unit → HProg β} (h : (lift (check c why) >>= f).run e w = (r, w')) :
    (Fails r ∧ w' = w) ∨ c = true ∧ (f ()).run e w = (r, w') := by
  rcases lift_step (.check _ _) h with h | ⟨a, ha, h⟩
  · exact .inl h
  · exact .inr ⟨check_ok ha.symm, h⟩

theorem need_step {o : Option α} {why : String} {f : α → HProg β} (h : (lift (need o why) >>= f).run e w = (r, w')) :
    (Fails r ∧ w' = w) ∨ ∃ a, o = some a ∧ (f a).run e w = (r, w') := by
  rcases lift_step (.need _ _) h with h | ⟨a, ha, h⟩
  · exact .inl h
  · exact .inr ⟨a, need_ok ha.symm, h⟩

theorem getI_step {k : String} {f : Issuance → HProg β} (h : (getIssuance k >>= f).run e w = (r, w')) :
    (Fails r ∧ Eff e w w' [] [] ∧ w'.drawn = w.drawn) ∨
      ∃ i w1, w.store k = some (.issuance i) ∧ Eff e w w1 [] [] ∧ w1.drawn = w.drawn ∧ (f i).run e w1 = (r, w') := by
  rcases bind_inv h with ⟨y, h1, rfl⟩ | ⟨a, w1, h1, h2⟩
  · obtain ⟨hE, hd, h3⟩ := getIssuance_inv h1
    rcases h3 with h3 | ⟨i, _, h3⟩ <;> cases h3
    exact .inl ⟨⟨_, rfl, by simp⟩, hE, hd⟩
  · obtain ⟨hE, hd, h3⟩ := getIssuance_inv h1
    rcases h3 with h3 | ⟨i, hi, h3⟩ <;> cases h3
    exact .inr ⟨_, _, hi, hE, hd, h2⟩

theorem getP_step {k : String} {f : Presentation → HProg β} (h : (getPresentation k >>= f).run e w = (r, w')) :
    (Fails r ∧ Eff e w w' [] [] ∧ w'.drawn = w.drawn) ∨
      ∃ i w1, w.store k = some (.presentation i) ∧ Eff e w w1 [] [] ∧ w1.drawn = w.drawn ∧ (f i).run e w1 = (r, w') := by
  rcases bind_inv h with ⟨y, h1, rfl⟩ | ⟨a, w1, h1, h2⟩
  · obtain ⟨hE, hd, h3⟩ := getPresentation_inv h1
    rcases h3 with h3 | ⟨i, _, h3⟩ <;> cases h3
    exact .inl ⟨⟨_, rfl, by simp⟩, hE, hd⟩
  · obtain ⟨hE, hd, h3⟩ := getPresentation_inv h1
    rcases h3 with h3 | ⟨i, hi, h3⟩ <;> cases h3
    exact .inr ⟨_, _, hi, hE, hd, h2⟩

theorem call_step {c : Call} {f : c.Reply → HProg β} (h : (callE c >>= f).run e w = (r, w')) :
    (Fails r ∧ Eff e w w' [⟨c, none⟩] [] ∧ w'.drawn = w.drawn) ∨
      ∃ a w1, Eff e w w1 [⟨c, some a⟩] [] ∧ w1.drawn = w.drawn ∧ (f a).run e w1 = (r, w') := by
  rcases bind_inv h with ⟨y, h1, rfl⟩ | ⟨a, w1, h1, h2⟩
  · obtain ⟨o, hE, hd, h3⟩ := callE_inv h1
    rcases h3 with ⟨rfl, h3⟩ | ⟨i, _, h3⟩ <;> cases h3
    exact .inl ⟨⟨_, rfl, by simp⟩, hE, hd⟩
  · obtain ⟨o, hE, hd, h3⟩ := callE_inv h1
    rcases h3 with ⟨rfl, h3⟩ | ⟨i, rfl, h3⟩ <;> cases h3
    exact .inr ⟨_, _, hE, hd, h2⟩

theorem draw_step {f : String → HProg β} (h : (drawE >>= f).run e w = (r, w')) :
    ∃ w1, Eff e w w1 [] [] ∧ w1.drawn = w.drawn + 1 ∧ (f (e.rng w.drawn)).run e w1 = (r, w') := by
  rcases bind_inv h with ⟨y, h1, rfl⟩ | ⟨a, w1, h1, h2⟩
  · obtain ⟨_, _, h3⟩ := drawE_inv h1; cases h3
  · obtain ⟨hE, hd, h3⟩ := drawE_inv h1
    cases h3
    exact ⟨w1, hE, hd, h2⟩

theorem now_step {f : Int → HProg β} (h : (nowE >>= f).run e w = (r, w')) : (f w.now).run e w = (r, w') := by
  rcases bind_inv h with ⟨y, h1, rfl⟩ | ⟨a, w1, h1, h2⟩
  · obtain ⟨_, h3⟩ := nowE_inv h1; cases h3
  · obtain ⟨rfl, h3⟩ := nowE_inv h1
    cases h3
    exact h2

theorem put_end {k : String} {v : HVal} {b : β} (h : (putE k v >>= fun _ => (pure b : HProg β)).run e w = (r, w')) :
    ∃ ws, Eff e w w' [] ws ∧ w'.drawn = w.drawn ∧ Ends e (k, some v) b r ws := write_pure_inv (fun h => putE_inv h) h

theorem purge_end {k : String} {b : β} (h : (purgeE k >>= fun _ => (pure b : HProg β)).run e w = (r, w')) :
    ∃ ws, Eff e w w' [] ws ∧ w'.drawn = w.drawn ∧ Ends e (k, none) b r ws := write_pure_inv (fun h => purgeE_inv h) h

end

theorem specClaims_noStore (cs : Dict CredentialConfiguration) (s : AuthorizationSpec) : NoStore (specClaims cs s) := by
  unfold specClaims
  split
  · exact .ok _
  · split
    · exact .err (by simp)
    · exact .ok _

theorem specDetails_noStore (cs : Dict CredentialConfiguration) (l : List AuthorizationSpec) : NoStore (specDetails cs l) := by
  induction l with
  | nil => exact .ok _
  | cons s l ih => exact (specClaims_noStore cs s).bind fun _ => ih.bind fun _ => .pure _

theorem narrowScope_noStore (cs : Dict CredentialConfiguration) (o : Option (List AuthorizationSpec)) : NoStore (narrowScope cs o) := by
  cases o with
  | none => exact .ok _
  | some l => exact (specDetails_noStore cs l).bind fun _ => .pure _

theorem offeredConfigs_noStore (cs : Dict CredentialConfiguration) (ids : List String) (acc : Dict CredentialConfiguration) :
    NoStore (offeredConfigs cs ids acc) := by
  induction ids generalizing acc with
  | nil => exact .ok _
  | cons s l ih => exact (NoStore.need _ _).bind fun _ => ih _

theorem tokenRequest_noStore (i : Issuance) : NoStore (tokenRequest i) :=
  (NoStore.need _ _).bind fun _ => (NoStore.need _ _).bind fun _ => .pure _

theorem authorizedCredentials_noStore (iss : Verif.Issuer) (l : List Issuer.AuthorizedDetail) (acc : Dict (List String)) :
    NoStore (authorizedCredentials iss l acc) := by
  induction l generalizing acc with
  | nil => exact .ok _
  | cons s l ih => exact (detailConfig_noStore _ _).bind fun _ => ih _

theorem authorizedOf_noStore (iss : Verif.Issuer) (o : Option (List Issuer.AuthorizedDetail)) : NoStore (authorizedOf iss o) := by
  cases o with
  | none => exact .ok _
  | some l => exact (authorizedCredentials_noStore iss l []).bind fun _ => .pure _

theorem authorizedOfNonempty_noStore (iss : Verif.Issuer) (o : Option (List Issuer.AuthorizedDetail)) : NoStore (authorizedOfNonempty iss o) := by
  rcases o with _ | (_ | ⟨a, l⟩)
  · exact .ok _
  · exact .ok _
  · exact authorizedOf_noStore iss (some (a :: l))

theorem authorizable_noStore (i : Issuance) : NoStore (authorizable i) := by
  unfold authorizable
  split
  · exact .check _ _
  · split
    · exact .err (by simp)
    · exact .check _ _

theorem offerDetails_noStore (cs : Dict CredentialConfiguration) (l : List String) : NoStore (offerDetails cs l) := by
  induction l with
  | nil => exact .ok _
  | cons s l ih => exact (NoStore.need _ _).bind fun _ => ih.bind fun _ => .pure _

theorem authorizationDetails_noStore (i : Issuance) (req : AuthorizeRequest) : NoStore (authorizationDetails i req) := by
  unfold authorizationDetails
  split
  · exact .ok _
  · split
    · exact .err (by simp)
    · exact offerDetails_noStore _ _

theorem requestDetails_noStore (i : Issuance) (req : AuthorizeRequest) : NoStore (requestDetails i req) := by
  unfold requestDetails
  split
  · exact .ok _
  · exact (authorizationDetails_noStore i req).bind fun _ => .pure _

theorem authorizationRequest_noStore (i : Issuance) (req : AuthorizeRequest) : NoStore (authorizationRequest i req) :=
  (NoStore.need _ _).bind fun _ => (requestDetails_noStore i req).bind fun _ => (NoStore.need _ _).bind fun _ =>
    (NoStore.first _).bind fun _ => (NoStore.first _).bind fun _ => .pure _

theorem buildFilter_noStore (r : Verifier.RequestObject) : NoStore (buildFilter r) := by
  unfold buildFilter
  split
  · exact .err (by simp)
  · split
    · exact .err (by simp)
    · exact .ok _

theorem parseResponse_noStore (P : Provider) (r : RequestObjectType) : NoStore (parseResponse P r) := by
  cases r with
  | object _ => exact .err (by simp)
  | jwt t => exact .need _ _

section
variable {e : HEnv} {w w' : HWorld} {r : HRes Resp} {P : Provider}

/-- The state of a flow as `offer` first stores it. -/
def freshFlow (id : String) (req : OfferRequest) (md : Verif.Issuer) (sv : Server) : Issuance :=
  { id, clientId := req.clientId, subjectId := req.subjectId, status := .ready, offer := req.offer, issuer := md, server := sv }

theorem offer_did {req : OfferRequest} (h : (offer req).run e w = (r, w')) :
    ∃ evs ws, Eff e w w' evs ws ∧
      (Fails r ∧ ws = [] ∧ (∀ ev ∈ evs, ev.call = .metadata req.offer.credentialIssuer ∨ ev.call = .oauthServer req.offer.credentialIssuer) ∨
       ∃ md sv, w'.drawn = w.drawn + 1 ∧
        evs = [⟨.metadata req.offer.credentialIssuer, some md⟩, ⟨.oauthServer req.offer.credentialIssuer, some sv⟩] ∧
        (r = .error .store ∧ ws = [] ∨
         ws = [(e.rng w.drawn, some (.issuance (freshFlow (e.rng w.drawn) req md sv)))] ∧
          ((r = .error .store ∧ ∃ n, e.fault n = .failAfter) ∨ Fails r ∧ (∃ x, offeredConfigs md.configs req.offer.configIds [] = .error x) ∨
            ∃ o, offeredConfigs md.configs req.offer.configIds [] = .ok o ∧
              r = .ok (.offer (e.rng w.drawn) req.offer.credentialIssuer o req.offer.grants)))) := by
  unfold offer at h
  rcases check_step h with ⟨hf, rfl⟩ | ⟨hc, h⟩
  · exact ⟨[], [], Eff.refl _ _, .inl ⟨hf, rfl, by simp⟩⟩
  unfold newIssuance at h
  rcases bind_inv h with ⟨x, h1, rfl⟩ | ⟨i, w1, h1, h⟩
  · obtain ⟨w2, _, _, h2⟩ := draw_step h1
    obtain ⟨h3, _⟩ := pure_inv h2; cases h3
  obtain ⟨w2, hE1, hd1, h2⟩ := draw_step h1
  obtain ⟨h3, rfl⟩ := pure_inv h2
  cases h3
  unfold setIssuer at h
  rcases bind_inv h with ⟨x, h1, rfl⟩ | ⟨j, w3, h1, h⟩
  · rcases call_step h1 with ⟨hf, hE, _⟩ | ⟨md, w3, hE2, _, h1⟩
    · exact ⟨_, _, hE1.trans hE, .inl ⟨Fails.of (NoStore.err (α := Resp) (by obtain ⟨y, hy, hn⟩ := hf; cases hy; exact hn)) rfl, rfl, by simp⟩⟩
    · rcases call_step h1 with ⟨hf, hE, _⟩ | ⟨sv, w4, hE3, _, h1⟩
      · exact ⟨_, _, (hE1.trans hE2).trans hE,
          .inl ⟨Fails.of (NoStore.err (α := Resp) (by obtain ⟨y, hy, hn⟩ := hf; cases hy; exact hn)) rfl, rfl, by simp⟩⟩
      · obtain ⟨h2, _⟩ := pure_inv h1; cases h2
  · rcases call_step h1 with ⟨hf, _, _⟩ | ⟨md, w4, hE2, hd2, h1⟩
    · exact absurd rfl hf.ne_ok
    rcases call_step h1 with ⟨hf, _, _⟩ | ⟨sv, w5, hE3, hd3, h1⟩
    · exact absurd rfl hf.ne_ok
    obtain ⟨h2, rfl⟩ := pure_inv h1
    cases h2
    have hE := (hE1.trans hE2).trans hE3
    rcases bind_inv h with ⟨x, h4, rfl⟩ | ⟨_, w6, h4, h5⟩
    · obtain ⟨ws, hE4, hd4, hw⟩ := putE_inv h4
      refine ⟨_, _, hE.trans hE4, .inr ⟨md, sv, by omega, rfl, ?_⟩⟩
      generalize hq : (Except.error x : HRes Unit) = q at hw
      rcases hw with _ | _ | hl <;> cases hq
      · exact .inl ⟨rfl, rfl⟩
      · exact .inr ⟨rfl, .inl ⟨rfl, hl⟩⟩
    · obtain ⟨ws, hE4, hd4, hw⟩ := putE_inv h4
      generalize hq : (Except.ok _ : HRes Unit) = q at hw
      cases hw <;> cases hq
      rcases lift_step (offeredConfigs_noStore _ _ _) h5 with ⟨hf, rfl⟩ | ⟨o, ho, h6⟩
      · refine ⟨_, _, hE.trans hE4, .inr ⟨md, sv, by omega, rfl, .inr ⟨rfl, .inr (.inl ⟨hf, ?_⟩)⟩⟩⟩
        cases hoc : offeredConfigs md.configs req.offer.configIds [] with
        | error x => exact ⟨x, rfl⟩
        | ok o =>
          rw [show (lift _ >>= _ : HProg Resp) = lift (offeredConfigs md.configs req.offer.configIds []) >>= _ from rfl, hoc] at h5
          have := (pure_inv (show (pure (Resp.offer _ _ o _) : HProg Resp).run e _ = _ from h5)).1
          rw [this] at hf
          exact absurd rfl hf.ne_ok
      · obtain ⟨rfl, rfl⟩ := pure_inv h6
        exact ⟨_, _, hE.trans hE4, .inr ⟨md, sv, by omega, rfl, .inr ⟨rfl, .inr (.inr ⟨o, ho, rfl⟩)⟩⟩⟩

theorem accept_did {req : AcceptRequest} (h : (accept req).run e w = (r, w')) :
    ∃ ws, Eff e w w' [] ws ∧ w'.drawn = w.drawn ∧
      (Fails r ∧ ws = [] ∨
       ∃ i acc, w.store req.issuanceId = some (.issuance i) ∧ i.status = .ready ∧ req.accept ≠ some [] ∧
        narrowScope i.issuer.configs req.accept = .ok acc ∧
        Ends e (i.id, some (.issuance { i with accepted := acc, status := if needsPin i.offer then .pendingPin else .accepted })) (.flow i.id) r ws) := by
  unfold accept at h
  rcases getI_step h with ⟨hf, hE, hd⟩ | ⟨i, w1, hi, hE, hd, h⟩
  · exact ⟨_, hE, hd, .inl ⟨hf, rfl⟩⟩
  rcases check_step h with ⟨hf, rfl⟩ | ⟨hs, h⟩
  · exact ⟨_, hE, hd, .inl ⟨hf, rfl⟩⟩
  rcases check_step h with ⟨hf, rfl⟩ | ⟨hc, h⟩
  · exact ⟨_, hE, hd, .inl ⟨hf, rfl⟩⟩
  rcases lift_step (narrowScope_noStore _ _) h with ⟨hf, rfl⟩ | ⟨acc, ha, h⟩
  · exact ⟨_, hE, hd, .inl ⟨hf, rfl⟩⟩
  obtain ⟨ws, hE2, hd2, hends⟩ := put_end h
  refine ⟨ws, hE.trans hE2, hd2.trans hd, .inr ⟨i, acc, hi, by simpa using hs, ?_, ha, hends⟩⟩
  intro hn; rw [hn] at hc; simp at hc

theorem pin_did {req : PinRequest} (h : (pin req).run e w = (r, w')) :
    ∃ ws, Eff e w w' [] ws ∧ w'.drawn = w.drawn ∧
      (Fails r ∧ ws = [] ∨
       ∃ i, w.store req.issuanceId = some (.issuance i) ∧ i.status = .pendingPin ∧
        Ends e (i.id, some (.issuance { i with pin := some req.pin, status := .accepted })) (.flow i.id) r ws) := by
  unfold pin at h
  rcases getI_step h with ⟨hf, hE, hd⟩ | ⟨i, w1, hi, hE, hd, h⟩
  · exact ⟨_, hE, hd, .inl ⟨hf, rfl⟩⟩
  rcases check_step h with ⟨hf, rfl⟩ | ⟨hs, h⟩
  · exact ⟨_, hE, hd, .inl ⟨hf, rfl⟩⟩
  obtain ⟨ws, hE2, hd2, hends⟩ := put_end h
  exact ⟨ws, hE.trans hE2, hd2.trans hd, .inr ⟨i, hi, by simpa using hs, hends⟩⟩

/-- The token request of a pre-authorized flow, as a record. -/
theorem tokenRequest_ok {i : Issuance} {t : Issuer.TokenRequest} (h : tokenRequest i = .ok t) :
    ∃ p, preAuthorized i.offer = some p ∧ t = {
      credentialIssuer := i.issuer.credentialIssuer, clientId := some i.clientId,
      grantType := .preAuthorizedCode p.preAuthorizedCode i.pin, authorizationDetails := i.accepted } := by
  unfold tokenRequest at h
  cases hg : i.offer.grants with
  | none => rw [hg] at h; cases h
  | some g =>
    rw [hg] at h
    cases hp : g.preAuthorizedCode with
    | none => simp [need, Bind.bind, Except.bind, hp] at h
    | some p =>
      simp [need, Bind.bind, Except.bind, hp, Pure.pure, Except.pure] at h
      exact ⟨p, by simp [preAuthorized, hg, hp], h.symm⟩

theorem token_did {id : String} (h : (token id).run e w = (r, w')) :
    ∃ evs ws, Eff e w w' evs ws ∧ w'.drawn = w.drawn ∧
      (Fails r ∧ evs = [] ∧ ws = [] ∨
       ∃ i p, w.store id = some (.issuance i) ∧ i.status = .accepted ∧ preAuthorized i.offer = some p ∧
        ∃ q, q = (⟨i.issuer.credentialIssuer, some i.clientId, .preAuthorizedCode p.preAuthorizedCode i.pin, i.accepted⟩ : Issuer.TokenRequest) ∧
        (Fails r ∧ ws = [] ∧ (∃ o, evs = [⟨.token q, o⟩]) ∨
         ∃ t a, evs = [⟨.token q, some t⟩] ∧ authorizedOf i.issuer t.authorizationDetails = .ok a ∧
          Ends e (i.id, some (.issuance { i with token := t, status := .tokenReceived })) (.authorized i.id a) r ws)) := by
  unfold token at h
  rcases getI_step h with ⟨hf, hE, hd⟩ | ⟨i, w1, hi, hE, hd, h⟩
  · exact ⟨_, _, hE, hd, .inl ⟨hf, rfl, rfl⟩⟩
  rcases check_step h with ⟨hf, rfl⟩ | ⟨hs, h⟩
  · exact ⟨_, _, hE, hd, .inl ⟨hf, rfl, rfl⟩⟩
  rcases lift_step (tokenRequest_noStore _) h with ⟨hf, rfl⟩ | ⟨q, hq, h⟩
  · exact ⟨_, _, hE, hd, .inl ⟨hf, rfl, rfl⟩⟩
  obtain ⟨p, hp, hq⟩ := tokenRequest_ok hq
  have hs' : i.status = .accepted := by simp at hs; exact hs.2
  rcases call_step h with ⟨hf, hE2, hd2⟩ | ⟨t, w2, hE2, hd2, h⟩
  · exact ⟨_, _, hE.trans hE2, by omega, .inr ⟨i, p, hi, hs', hp, q, hq, .inl ⟨hf, rfl, _, rfl⟩⟩⟩
  rcases lift_step (authorizedOf_noStore _ _) h with ⟨hf, rfl⟩ | ⟨a, ha, h⟩
  · exact ⟨_, _, hE.trans hE2, by omega, .inr ⟨i, p, hi, hs', hp, q, hq, .inl ⟨hf, rfl, _, rfl⟩⟩⟩
  obtain ⟨ws, hE3, hd3, hends⟩ := put_end h
  exact ⟨_, _, (hE.trans hE2).trans hE3, by omega, .inr ⟨i, p, hi, hs', hp, q, hq, .inr ⟨t, a, rfl, ha, hends⟩⟩⟩

/-- The flow `authorize` works on: one it finds stored, accepted, or a new one. -/
inductive Starts (e : HEnv) (w : HWorld) (req : AuthorizeRequest) : Issuance → List Event → Nat → Prop
  | stored {id i} (hr : req.initiator = .issuer id) (hs : w.store id = some (.issuance i)) (ha : i.status = .accepted) : Starts e w req i [] w.drawn
  | new {c iss sc sub md sv} (hr : req.initiator = .wallet c iss sc sub) (hx : req.authorizationDetails = none ∨ sc = none) :
      Starts e w req { id := e.rng w.drawn, clientId := c, subjectId := sub, issuer := md, server := sv, scope := sc }
        [⟨.metadata iss, some md⟩, ⟨.oauthServer iss, some sv⟩] (w.drawn + 1)

theorem authorizable_status {i : Issuance} (h : authorizable i = .ok ()) : i.status = .accepted := by
  unfold authorizable at h
  split at h
  · have := check_ok h.symm; simp at this; exact this.2
  · split at h
    · cases h
    · have := check_ok h.symm; simp at this; exact this.2

/-- Neither a token nor an authorization request nor a credential request. -/
def Preamble (evs : List Event) : Prop := ∀ ev ∈ evs, (∃ u, ev.call = .metadata u) ∨ ∃ u, ev.call = .oauthServer u

theorem startFlow_did {req : AuthorizeRequest} {ri : HRes Issuance} (h : (startFlow req).run e w = (ri, w')) :
    ∃ evs, Eff e w w' evs [] ∧ Preamble evs ∧ (Fails ri ∨ ∃ i, ri = .ok i ∧ Starts e w req i evs w'.drawn) := by
  unfold startFlow at h
  split at h
  · rename_i id hr
    rcases getI_step h with ⟨hf, hE, hd⟩ | ⟨i, w1, hi, hE, hd, h⟩
    · exact ⟨_, hE, by simp [Preamble], .inl hf⟩
    rcases lift_step (authorizable_noStore _) h with ⟨hf, rfl⟩ | ⟨_, ha, h⟩
    · exact ⟨_, hE, by simp [Preamble], .inl hf⟩
    obtain ⟨rfl, rfl⟩ := pure_inv h
    refine ⟨_, hE, by simp [Preamble], .inr ⟨i, rfl, ?_⟩⟩
    rw [hd]
    exact .stored hr hi (authorizable_status ha)
  · rename_i c iss sc sub hr
    rcases check_step h with ⟨hf, rfl⟩ | ⟨hc, h⟩
    · exact ⟨_, Eff.refl _ _, by simp [Preamble], .inl hf⟩
    unfold newIssuance at h
    rcases bind_inv h with ⟨x, h1, rfl⟩ | ⟨i, w1, h1, h⟩
    · obtain ⟨w2, _, _, h2⟩ := draw_step h1
      obtain ⟨h3, _⟩ := pure_inv h2; cases h3
    obtain ⟨w2, hE1, hd1, h2⟩ := draw_step h1
    obtain ⟨h3, rfl⟩ := pure_inv h2
    cases h3
    unfold setIssuer at h
    rcases bind_inv h with ⟨x, h1, rfl⟩ | ⟨j, w3, h1, h⟩
    · rcases call_step h1 with ⟨hf, hE, _⟩ | ⟨md, w3, hE2, _, h1⟩
      · exact ⟨_, hE1.trans hE, by simp [Preamble], .inl hf⟩
      · rcases call_step h1 with ⟨hf, hE, _⟩ | ⟨sv, w4, hE3, _, h1⟩
        · exact ⟨_, (hE1.trans hE2).trans hE, by simp [Preamble], .inl hf⟩
        · obtain ⟨h2, _⟩ := pure_inv h1; cases h2
    · rcases call_step h1 with ⟨hf, _, _⟩ | ⟨md, w4, hE2, hd2, h1⟩
      · exact absurd rfl hf.ne_ok
      rcases call_step h1 with ⟨hf, _, _⟩ | ⟨sv, w5, hE3, hd3, h1⟩
      · exact absurd rfl hf.ne_ok
      obtain ⟨h2, rfl⟩ := pure_inv h1
      cases h2
      obtain ⟨rfl, rfl⟩ := pure_inv h
      refine ⟨_, (hE1.trans hE2).trans hE3, by simp [Preamble], .inr ⟨_, rfl, ?_⟩⟩
      have hd : w'.drawn = w.drawn + 1 := by omega
      rw [hd]
      refine .new hr ?_
      cases hda : req.authorizationDetails with
      | none => exact .inl rfl
      | some a =>
        cases sc with
        | none => exact .inr rfl
        | some s => rw [hda] at hc; simp at hc

/-- The state of a flow while `authorize` runs. -/
def authorizing (P : Provider) (v : String) (i : Issuance) (req : AuthorizeRequest) : Issuance :=
  { i with accepted := req.authorizationDetails, codeChallenge := some (P.codeChallenge v), codeVerifier := some v }

theorem authorize_did {req : AuthorizeRequest} (h : (authorize P req).run e w = (r, w')) :
    ∃ evs ws, Eff e w w' evs ws ∧
      (Fails r ∧ ws = [] ∧ Preamble evs ∨
       ∃ i pre n, Starts e w req i pre n ∧ Preamble pre ∧ w'.drawn = n + 1 ∧
        ∃ q, authorizationRequest (authorizing P (e.rng n) i req) req = .ok q ∧
         (Fails r ∧ ws = [] ∧ evs = pre ++ [⟨.authorization q, none⟩] ∨
          ∃ a, (∃ o, Fails r ∧ ws = [] ∧ evs = pre ++ [⟨.authorization q, some a⟩, ⟨.token (codeTokenRequest (authorizing P (e.rng n) i req) req a), o⟩]) ∨
           ∃ t m, evs = pre ++ [⟨.authorization q, some a⟩, ⟨.token (codeTokenRequest (authorizing P (e.rng n) i req) req a), some t⟩] ∧
            authorizedOfNonempty i.issuer t.authorizationDetails = .ok m ∧
            Ends e (i.id, some (.issuance { authorizing P (e.rng n) i req with token := t, status := .tokenReceived })) (.authorized i.id m) r ws)) := by
  unfold authorize at h
  rcases bind_inv h with ⟨x, h1, rfl⟩ | ⟨i, w1, h1, h⟩
  · obtain ⟨evs, hE, hp, h2⟩ := startFlow_did h1
    rcases h2 with ⟨y, hy, hn⟩ | ⟨i, hi, _⟩
    · cases hy; exact ⟨_, _, hE, .inl ⟨⟨_, rfl, hn⟩, rfl, hp⟩⟩
    · cases hi
  obtain ⟨evs, hE, hp, h2⟩ := startFlow_did h1
  rcases h2 with hf | ⟨i', hi, hs⟩
  · exact absurd rfl hf.ne_ok
  cases hi
  obtain ⟨w2, hE2, hd2, h⟩ := draw_step h
  have hE12 : Eff e w w2 evs [] := by simpa using hE.trans hE2
  rcases lift_step (authorizationRequest_noStore _ _) h with ⟨hf, rfl⟩ | ⟨q, hq, h⟩
  · exact ⟨_, _, hE12, .inl ⟨hf, rfl, hp⟩⟩
  rcases call_step h with ⟨hf, hE3, hd3⟩ | ⟨a, w3, hE3, hd3, h⟩
  · exact ⟨_, _, hE12.trans hE3, .inr ⟨i, evs, _, hs, hp, by omega, q, hq, .inl ⟨hf, rfl, rfl⟩⟩⟩
  rcases call_step h with ⟨hf, hE4, hd4⟩ | ⟨t, w4, hE4, hd4, h⟩
  · exact ⟨_, _, (hE12.trans hE3).trans hE4, .inr ⟨i, evs, _, hs, hp, by omega, q, hq, .inr ⟨a, .inl ⟨none, hf, rfl, by simp [authorizing]⟩⟩⟩⟩
  rcases lift_step (authorizedOfNonempty_noStore _ _) h with ⟨hf, rfl⟩ | ⟨m, hm, h⟩
  · exact ⟨_, _, (hE12.trans hE3).trans hE4, .inr ⟨i, evs, _, hs, hp, by omega, q, hq, .inr ⟨a, .inl ⟨some t, hf, rfl, by simp [authorizing]⟩⟩⟩⟩
  obtain ⟨ws, hE5, hd5, hends⟩ := put_end h
  refine ⟨_, _, ((hE12.trans hE3).trans hE4).trans hE5, .inr ⟨i, evs, _, hs, hp, by omega, q, hq, .inr ⟨a, .inr ⟨t, m, by simp [authorizing], hm, ?_⟩⟩⟩⟩
  simpa [authorizing] using hends

theorem credentials_did {req : CredentialsRequest} (h : (credentials P req).run e w = (r, w')) :
    ∃ evs ws, Eff e w w' evs ws ∧
      (Fails r ∧ evs = [] ∧ ws = [] ∨
       ∃ i jwt, w.store req.issuanceId = some (.issuance i) ∧ i.status = .tokenReceived ∧ P.signProof (proofClaims i w.now) = some jwt ∧
        OnlyRequests i jwt evs ∧
        (i.scope = none → ∀ l, i.token.authorizationDetails = some l →
          ∃ rest, evs.filterMap Event.credentialRequest ++ rest = (wantedIds req.identifiers (allIds l)).map (identifierRequest i jwt) ∧
            (rest = [] ∨ Fails r)) ∧
        (Fails r ∧ ws = [] ∨ ∃ j, Grown P.jose evs i j ∧ Answered evs ∧ Ends e (j.id, some (.issuance j)) (.credentials j.id j.outstanding) r ws)) := by
  unfold credentials at h
  rcases getI_step h with ⟨hf, hE, hd⟩ | ⟨i, w1, hi, hE, hd, h⟩
  · exact ⟨_, _, hE, .inl ⟨hf, rfl, rfl⟩⟩
  rcases check_step h with ⟨hf, rfl⟩ | ⟨hs, h⟩
  · exact ⟨_, _, hE, .inl ⟨hf, rfl, rfl⟩⟩
  have hs' : i.status = .tokenReceived := by simpa using hs
  have h := now_step h
  rcases need_step h with ⟨hf, rfl⟩ | ⟨jwt, hj, h⟩
  · exact ⟨_, _, hE, .inl ⟨hf, rfl, rfl⟩⟩
  rw [hE.now] at hj
  rcases bind_inv h with ⟨x, h1, rfl⟩ | ⟨j, w2, h1, h⟩
  · obtain ⟨evs, hE2, hn, hr, hids, _⟩ := fetch_inv h1
    refine ⟨_, _, hE.trans hE2, .inr ⟨i, jwt, hi, hs', hj, hr, ?_, .inl ⟨⟨x, rfl, hn.ne⟩, rfl⟩⟩⟩
    intro hsc l hl
    obtain ⟨rest, h2, _⟩ := hids hsc l hl
    exact ⟨rest, h2, .inr ⟨x, rfl, hn.ne⟩⟩
  · obtain ⟨evs, hE2, hn, hr, hids, hg⟩ := fetch_inv h1
    obtain ⟨ws, hE3, hd3, hends⟩ := put_end h
    refine ⟨_, _, by simpa using (hE.trans hE2).trans hE3, .inr ⟨i, jwt, hi, hs', hj, hr, ?_, .inr ⟨j, (hg j rfl).1, by simpa using (hg j rfl).2, hends⟩⟩⟩
    intro hsc l hl
    obtain ⟨rest, h2, h3⟩ := hids hsc l hl
    exact ⟨rest, h2, .inl (h3 j rfl)⟩

/-- Storing or dropping, as a write. -/
def stashed (i : Issuance) : Option HVal := if i.deferred.isEmpty && i.credentials.isEmpty then none else some (.issuance i)

theorem stash_end {i : Issuance} {b : Resp} (h : (stash i >>= fun _ => (pure b : HProg Resp)).run e w = (r, w')) :
    ∃ ws, Eff e w w' [] ws ∧ Ends e (i.id, stashed i) b r ws := by
  unfold stash at h
  unfold stashed
  by_cases hc : (i.deferred.isEmpty && i.credentials.isEmpty) = true
  · rw [if_pos hc] at h ⊢
    obtain ⟨ws, hE, _, hends⟩ := purge_end h
    exact ⟨ws, hE, hends⟩
  · rw [if_neg hc] at h ⊢
    obtain ⟨ws, hE, _, hends⟩ := put_end h
    exact ⟨ws, hE, hends⟩

theorem deferred_did {req : DeferredRequest} (h : (deferred P req).run e w = (r, w')) :
    ∃ evs ws, Eff e w w' evs ws ∧
      (Fails r ∧ evs = [] ∧ ws = [] ∨
       ∃ i o logos, w.store req.issuanceId = some (.issuance i) ∧ i.status = .tokenReceived ∧ OnlyLogos logos ∧
        evs = ⟨.deferred { transactionId := req.transactionId, credentialIssuer := i.issuer.credentialIssuer, accessToken := i.token.accessToken }, o⟩ :: logos ∧
        (Fails r ∧ ws = [] ∨
         ∃ j, Grown P.jose evs { i with deferred := remove i.deferred req.transactionId } j ∧ o.isSome = true ∧
          Ends e (j.id, stashed j) (.credentials j.id j.outstanding) r ws)) := by
  unfold deferred at h
  rcases getI_step h with ⟨hf, hE, hd⟩ | ⟨i, w1, hi, hE, hd, h⟩
  · exact ⟨_, _, hE, .inl ⟨hf, rfl, rfl⟩⟩
  rcases check_step h with ⟨hf, rfl⟩ | ⟨hs, h⟩
  · exact ⟨_, _, hE, .inl ⟨hf, rfl, rfl⟩⟩
  have hs' : i.status = .tokenReceived := by simpa using hs
  rcases call_step h with ⟨hf, hE2, hd2⟩ | ⟨resp, w2, hE2, hd2, h⟩
  · exact ⟨_, _, hE.trans hE2, .inr ⟨i, none, [], hi, hs', .nil, rfl, .inl ⟨hf, rfl⟩⟩⟩
  rcases need_step h with ⟨hf, rfl⟩ | ⟨config, hc, h⟩
  · exact ⟨_, _, hE.trans hE2, .inr ⟨i, _, [], hi, hs', .nil, rfl, .inl ⟨hf, rfl⟩⟩⟩
  rcases bind_inv h with ⟨x, h1, rfl⟩ | ⟨out, w3, h1, h⟩
  · obtain ⟨logos, hE3, hl, hn, _⟩ := process_inv h1
    exact ⟨_, _, (hE.trans hE2).trans hE3, .inr ⟨i, _, logos, hi, hs', hl, rfl, .inl ⟨⟨x, rfl, hn.ne⟩, rfl⟩⟩⟩
  · obtain ⟨logos, hE3, hl, hn, hout⟩ := process_inv h1
    obtain ⟨o1, o2, o3⟩ := hout out rfl
    obtain ⟨ws, hE4, hends⟩ := stash_end h
    exact ⟨_, _, by simpa using ((hE.trans hE2).trans hE3).trans hE4,
      .inr ⟨i, some resp, logos, hi, hs', hl, by simp, .inr ⟨_, Grown.record rfl hl o1 o2 o3, rfl, hends⟩⟩⟩

/-- A storage call. -/
def savesOf (l : List Credential) : List Event := l.map fun c => ⟨.save c, some ()⟩

theorem saveAll_did {i : Issuance} {l : List Credential} {ru : HRes Unit} (hn : i.notificationId = none) (h : (saveAll i l).run e w = (ru, w')) :
    ∃ evs, Eff e w w' evs [] ∧ w'.drawn = w.drawn ∧
      ((ru = .ok () ∧ evs = savesOf l) ∨ ∃ done c rest, ru = .error .provider ∧ l = done ++ c :: rest ∧ evs = savesOf done ++ [⟨.save c, none⟩]) := by
  induction l generalizing w w' ru with
  | nil =>
    obtain ⟨rfl, rfl⟩ := pure_inv h
    exact ⟨[], Eff.refl _ _, rfl, .inl ⟨rfl, rfl⟩⟩
  | cons c l ih =>
    unfold saveAll at h
    rcases bind_inv h with ⟨x, h1, rfl⟩ | ⟨o, w1, h1, h⟩
    · obtain ⟨_, _, _, h2⟩ := callO_inv h1; cases h2
    obtain ⟨o', hE, hd, h2⟩ := callO_inv h1
    cases h2
    cases o with
    | some u =>
      obtain ⟨evs, hE2, hd2, h3⟩ := ih h
      refine ⟨_, hE.trans hE2, by omega, ?_⟩
      rcases h3 with ⟨rfl, rfl⟩ | ⟨done, c', rest, rfl, rfl, rfl⟩
      · exact .inl ⟨rfl, rfl⟩
      · exact .inr ⟨c :: done, c', rest, rfl, rfl, rfl⟩
    | none =>
      simp only at h
      unfold notifyFailure at h
      rw [hn] at h
      rcases bind_inv h with ⟨x, h1, rfl⟩ | ⟨o, w2, h1, h⟩
      · obtain ⟨h3, _⟩ := pure_inv h1; cases h3
      · obtain ⟨_, rfl⟩ := pure_inv h1
        obtain ⟨rfl, rfl⟩ := lift_inv h
        exact ⟨_, hE, hd, .inr ⟨[], c, l, rfl, rfl, rfl⟩⟩

theorem notifyOutcome_did {i : Issuance} {ev : NotificationEvent} {ru : HRes Unit} (hn : i.notificationId = none)
    (h : (notifyOutcome i ev).run e w = (ru, w')) : ru = .ok () ∧ w' = w := by
  unfold notifyOutcome at h
  rw [hn] at h
  exact pure_inv h

theorem save_did {id : String} (hno : ∀ i, w.store id = some (.issuance i) → i.notificationId = none) (h : (save id).run e w = (r, w')) :
    ∃ evs ws, Eff e w w' evs ws ∧ w'.drawn = w.drawn ∧
      (Fails r ∧ evs = [] ∧ ws = [] ∨
       ∃ i, w.store id = some (.issuance i) ∧
        ((∃ done c rest, Fails r ∧ ws = [] ∧ i.credentials = done ++ c :: rest ∧ evs = savesOf done ++ [⟨.save c, none⟩]) ∨
         evs = savesOf i.credentials ∧
          (i.deferred.isEmpty = true ∧ Ends e (id, none) (.flow id) r ws ∨ i.deferred.isEmpty = false ∧ ws = [] ∧ r = .ok (.flow id)))) := by
  unfold save at h
  rcases getI_step h with ⟨hf, hE, hd⟩ | ⟨i, w1, hi, hE, hd, h⟩
  · exact ⟨_, _, hE, hd, .inl ⟨hf, rfl, rfl⟩⟩
  have hn := hno i hi
  rcases bind_inv h with ⟨x, h1, rfl⟩ | ⟨_, w2, h1, h⟩
  · obtain ⟨evs, hE2, hd2, h2⟩ := saveAll_did hn h1
    rcases h2 with ⟨h2, _⟩ | ⟨done, c, rest, h2, h3, h4⟩
    · cases h2
    · cases h2
      exact ⟨_, _, hE.trans hE2, by omega, .inr ⟨i, hi, .inl ⟨done, c, rest, ⟨_, rfl, by simp⟩, rfl, h3, by simpa using h4⟩⟩⟩
  · obtain ⟨evs, hE2, hd2, h2⟩ := saveAll_did hn h1
    rcases h2 with ⟨_, rfl⟩ | ⟨done, c, rest, h2, h3, h4⟩
    · rcases bind_inv h with ⟨x, h3, rfl⟩ | ⟨_, w3, h3, h'⟩
      · obtain ⟨h4, _⟩ := notifyOutcome_did hn h3; cases h4
      · obtain ⟨_, rfl⟩ := notifyOutcome_did hn h3
        clear h
        unfold endFlow at h'
        cases hdf : i.deferred.isEmpty with
        | true =>
          rw [hdf, if_pos rfl] at h'
          obtain ⟨ws, hE3, hd3, hends⟩ := purge_end h'
          exact ⟨_, _, by simpa using (hE.trans hE2).trans hE3, by omega, .inr ⟨i, hi, .inr ⟨rfl, .inl ⟨hdf, hends⟩⟩⟩⟩
        | false =>
          rw [hdf, if_neg (by simp)] at h'
          rcases bind_inv h' with ⟨x, h3, rfl⟩ | ⟨_, w4, h3, h5⟩
          · obtain ⟨h4, _⟩ := pure_inv h3; cases h4
          · obtain ⟨_, rfl⟩ := pure_inv h3
            obtain ⟨rfl, rfl⟩ := pure_inv h5
            exact ⟨_, _, hE.trans hE2, by omega, .inr ⟨i, hi, .inr ⟨by simp, .inr ⟨hdf, rfl, rfl⟩⟩⟩⟩
    · cases h2

theorem cancel_did {id : String} (hno : ∀ i, w.store id = some (.issuance i) → i.notificationId = none) (h : (cancel id).run e w = (r, w')) :
    ∃ ws, Eff e w w' [] ws ∧ w'.drawn = w.drawn ∧
      (Fails r ∧ ws = [] ∨ ∃ i, w.store id = some (.issuance i) ∧ Ends e (id, none) (.flow i.id) r ws) := by
  unfold cancel at h
  rcases getI_step h with ⟨hf, hE, hd⟩ | ⟨i, w1, hi, hE, hd, h⟩
  · exact ⟨_, hE, hd, .inl ⟨hf, rfl⟩⟩
  have hn := hno i hi
  rcases bind_inv h with ⟨x, h3, rfl⟩ | ⟨_, w3, h3, h'⟩
  · obtain ⟨h4, _⟩ := notifyOutcome_did hn h3; cases h4
  · obtain ⟨_, rfl⟩ := notifyOutcome_did hn h3
    obtain ⟨ws, hE3, hd3, hends⟩ := purge_end h'
    exact ⟨_, hE.trans hE3, by omega, .inr ⟨i, hi, hends⟩⟩

/-- Requests for a request object and for stored credentials only. -/
def OnlyRequest (evs : List Event) : Prop := ∀ ev ∈ evs, (∃ u, ev.call = .requestObject u) ∨ ∃ f, ev.call = .find f

theorem request_did {url : String} (h : (request P url).run e w = (r, w')) :
    ∃ evs ws, Eff e w w' evs ws ∧ OnlyRequest evs ∧
      (Fails r ∧ ws = [] ∨
       ∃ q pre f creds, Obtained P url q pre ∧ buildFilter q = .ok f ∧ evs = pre ++ [⟨.find f, some creds⟩] ∧ w'.drawn = w.drawn + 1 ∧
        Ends e (e.rng w.drawn, some (.presentation ⟨e.rng w.drawn, .requested, q, creds, f⟩)) (.request (e.rng w.drawn) .requested creds) r ws) := by
  unfold request at h
  rcases need_step h with ⟨hf, rfl⟩ | ⟨u, hu, h⟩
  · exact ⟨_, _, Eff.refl _ _, by simp [OnlyRequest], .inl ⟨hf, rfl⟩⟩
  obtain ⟨w1, hE1, hd1, h⟩ := draw_step h
  have hob : ∀ {rq w2}, (obtainRequest P url u).run e w1 = (rq, w2) →
      ∃ pre, Eff e w1 w2 pre [] ∧ w2.drawn = w1.drawn ∧ OnlyRequest pre ∧ (Fails rq ∨ ∃ q, rq = .ok q ∧ Obtained P url q pre) := by
    intro rq w2 h
    unfold obtainRequest at h
    cases hc : containsText "&presentation_definition".toList url.toList with
    | true =>
      rw [hc, if_pos rfl] at h
      obtain ⟨h1, rfl⟩ := lift_inv h
      refine ⟨[], Eff.refl _ _, rfl, by simp [OnlyRequest], ?_⟩
      cases hp : P.parseRequest url with
      | none => rw [hp] at h1; exact .inl ⟨_, h1, by simp⟩
      | some q => rw [hp] at h1; exact .inr ⟨q, h1, .inline hp hc⟩
    | false =>
      rw [hc, if_neg (by simp)] at h
      rcases call_step h with ⟨hf, hE2, hd2⟩ | ⟨resp, w3, hE2, hd2, h⟩
      · exact ⟨_, hE2, hd2, by simp [OnlyRequest], .inl hf⟩
      obtain ⟨h1, rfl⟩ := lift_inv h
      refine ⟨_, hE2, hd2, by simp [OnlyRequest], ?_⟩
      cases resp with
      | object o => exact .inl ⟨_, h1, by simp⟩
      | jwt t =>
        cases hp : P.decodeRequest t with
        | none => rw [show parseResponse P (.jwt t) = need (P.decodeRequest t) _ from rfl, hp] at h1; exact .inl ⟨_, h1, by simp⟩
        | some q =>
          rw [show parseResponse P (.jwt t) = need (P.decodeRequest t) _ from rfl, hp] at h1
          exact .inr ⟨q, h1, .fetched hu hp hc⟩
  rcases bind_inv h with ⟨x, h1, rfl⟩ | ⟨q, w2, h1, h⟩
  · obtain ⟨pre, hE2, _, ho, h2⟩ := hob h1
    rcases h2 with ⟨y, hy, hn⟩ | ⟨q, hq, _⟩
    · cases hy; exact ⟨_, _, hE1.trans hE2, ho, .inl ⟨⟨_, rfl, hn⟩, rfl⟩⟩
    · cases hq
  obtain ⟨pre, hE2, hd2, ho, h2⟩ := hob h1
  rcases h2 with hf | ⟨q', hq, hobt⟩
  · exact absurd rfl hf.ne_ok
  cases hq
  have hE12 : Eff e w w2 pre [] := by simpa using hE1.trans hE2
  rcases lift_step (buildFilter_noStore _) h with ⟨hf, rfl⟩ | ⟨f, hf', h⟩
  · exact ⟨_, _, hE12, ho, .inl ⟨hf, rfl⟩⟩
  have ho2 : ∀ o, OnlyRequest (pre ++ [⟨.find f, o⟩]) := by
    intro o ev hev
    rcases List.mem_append.mp hev with h | h
    · exact ho ev h
    · simp at h; subst h; exact .inr ⟨f, rfl⟩
  rcases call_step h with ⟨hf, hE3, hd3⟩ | ⟨creds, w3, hE3, hd3, h⟩
  · exact ⟨_, _, hE12.trans hE3, ho2 _, .inl ⟨hf, rfl⟩⟩
  obtain ⟨ws, hE4, hd4, hends⟩ := put_end h
  exact ⟨_, _, by simpa using (hE12.trans hE3).trans hE4, ho2 _, .inr ⟨q, pre, f, creds, hobt, hf', rfl, by omega, hends⟩⟩

theorem authorizePresentation_did {id : String} (h : (authorizePresentation id).run e w = (r, w')) :
    ∃ ws, Eff e w w' [] ws ∧ w'.drawn = w.drawn ∧
      (Fails r ∧ ws = [] ∨
       ∃ p, w.store id = some (.presentation p) ∧ p.status = .requested ∧
        Ends e (p.id, some (.presentation { p with status := .authorized })) (.status .authorized) r ws) := by
  unfold authorizePresentation at h
  rcases getP_step h with ⟨hf, hE, hd⟩ | ⟨i, w1, hi, hE, hd, h⟩
  · exact ⟨_, hE, hd, .inl ⟨hf, rfl⟩⟩
  rcases check_step h with ⟨hf, rfl⟩ | ⟨hs, h⟩
  · exact ⟨_, hE, hd, .inl ⟨hf, rfl⟩⟩
  obtain ⟨ws, hE2, hd2, hends⟩ := put_end h
  exact ⟨ws, hE.trans hE2, hd2.trans hd, .inr ⟨i, hi, by simpa using hs, hends⟩⟩

/-- The presentation the code builds, before the builder checks it. -/
def vpDraft (u : String) (p : Presentation) (pd : Dif.PresentationDefinition) (holder : String) : Vp :=
  (p.credentials.map fun c => Kind.string c.issued).foldl Vp.addCredential ((constTypes pd).foldl Vp.addType
    (((Vp.builder u).addContext (.string "https://www.w3.org/2018/credentials/examples/v1")).setHolder holder))

theorem present_did {id : String} (h : (present P id).run e w = (r, w')) :
    ∃ evs, Eff e w w' evs [] ∧
      (Fails r ∧ evs = [] ∨
       ∃ p pd vp jwt n u sub, w.store id = some (.presentation p) ∧ p.status = .authorized ∧ p.request.presentationDefinition = .object pd ∧
        sub = (⟨n, pd.id, descriptorMap pd.inputDescriptors⟩ : Dif.PresentationSubmission) ∧
        (vpDraft u p pd (beforeHash P.kid)).build = .ok vp ∧
        Proof.create P.jose .jwtVcJson (.vp vp p.request.clientId p.request.nonce) P.kid w.now = .ok jwt ∧
        ∃ o, evs = [⟨.present (p.request.responseUri.map trimSlashes) ⟨some [.string jwt], some sub, p.request.state⟩, o⟩] ∧
         (o = none ∧ Fails r ∨ ∃ a, o = some a ∧ r = .ok (.presented a))) := by
  unfold present at h
  rcases getP_step h with ⟨hf, hE, hd⟩ | ⟨p, w1, hi, hE, hd, h⟩
  · exact ⟨_, hE, .inl ⟨hf, rfl⟩⟩
  rcases check_step h with ⟨hf, rfl⟩ | ⟨hs, h⟩
  · exact ⟨_, hE, .inl ⟨hf, rfl⟩⟩
  have hs' : p.status = .authorized := by simpa using hs
  unfold createSubmission createVp at h
  cases hpd : p.request.presentationDefinition with
  | string s =>
    rw [hpd] at h
    rcases bind_inv h with ⟨x, h1, rfl⟩ | ⟨_, w2, h1, h⟩
    · obtain ⟨h2, rfl⟩ := refuse_inv h1
      cases h2
      exact ⟨_, hE, .inl ⟨⟨_, rfl, by simp⟩, rfl⟩⟩
    · obtain ⟨h2, _⟩ := refuse_inv h1; cases h2
  | object pd =>
    rw [hpd] at h
    simp only at h
    rcases bind_inv h with ⟨x, h1, rfl⟩ | ⟨sub, w2, h1, h⟩
    · obtain ⟨w3, _, _, h2⟩ := draw_step h1
      obtain ⟨h3, _⟩ := pure_inv h2; cases h3
    obtain ⟨w3, hE2, hd2, h2⟩ := draw_step h1
    obtain ⟨h3, rfl⟩ := pure_inv h2
    cases h3
    have hE12 : Eff e w w2 [] [] := hE.trans hE2
    have hvp : ∀ {rv w4}, HProg.run e (do
          let u ← drawE
          lift (match (vpDraft u p pd (beforeHash P.kid)).build with
            | .ok vp => .ok vp
            | .error e => .error (.refused e))) w2 = (rv, w4) →
        Eff e w2 w4 [] [] ∧ (Fails rv ∨ ∃ vp, rv = .ok vp ∧ (vpDraft (e.rng w2.drawn) p pd (beforeHash P.kid)).build = .ok vp) := by
      intro rv w4 h
      obtain ⟨w5, hE5, _, h⟩ := draw_step h
      obtain ⟨h6, rfl⟩ := lift_inv h
      refine ⟨hE5, ?_⟩
      cases hb : (vpDraft (e.rng w2.drawn) p pd (beforeHash P.kid)).build with
      | ok vp => rw [hb] at h6; exact .inr ⟨vp, h6, rfl⟩
      | error s => rw [hb] at h6; exact .inl ⟨_, h6, by simp⟩
    rcases bind_inv h with ⟨x, h1, rfl⟩ | ⟨vp, w4, h1, h⟩
    · obtain ⟨hE3, h2⟩ := hvp h1
      rcases h2 with ⟨y, hy, hn⟩ | ⟨vp, hv, _⟩
      · cases hy; exact ⟨_, hE12.trans hE3, .inl ⟨⟨_, rfl, hn⟩, rfl⟩⟩
      · cases hv
    obtain ⟨hE3, h2⟩ := hvp h1
    rcases h2 with hf | ⟨vp', hv, hb⟩
    · exact absurd rfl hf.ne_ok
    cases hv
    have hE13 : Eff e w w4 [] [] := hE12.trans hE3
    have h := now_step h
    rcases lift_step (NoStore.ofRes _) h with ⟨hf, rfl⟩ | ⟨jwt, hj, h⟩
    · exact ⟨_, hE13, .inl ⟨hf, rfl⟩⟩
    have hj' : Proof.create P.jose .jwtVcJson (.vp vp p.request.clientId p.request.nonce) P.kid w.now = .ok jwt := by
      rw [hE13.now] at hj
      cases hc : Proof.create P.jose .jwtVcJson (.vp vp p.request.clientId p.request.nonce) P.kid w.now with
      | ok s => rw [hc] at hj; simp [ofRes] at hj; rw [hj]
      | error x => rw [hc] at hj; cases x <;> simp [ofRes] at hj
    rcases call_step h with ⟨hf, hE4, _⟩ | ⟨a, w5, hE4, _, h⟩
    · exact ⟨_, hE13.trans hE4, .inr ⟨p, pd, vp, jwt, _, _, _, hi, hs', hpd, rfl, hb, hj', none, rfl, .inl ⟨rfl, hf⟩⟩⟩
    · obtain ⟨rfl, rfl⟩ := pure_inv h
      exact ⟨_, hE13.trans hE4, .inr ⟨p, pd, vp, jwt, _, _, _, hi, hs', hpd, rfl, hb, hj', some a, rfl, .inr ⟨a, rfl, rfl⟩⟩⟩

end

end Verif.Holder
