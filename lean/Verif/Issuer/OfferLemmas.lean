import Verif.Issuer.AuthorizeLemmas
import Verif.Issuer.StepLemmas
/-!
# Inversion of `create_offer` and `credential_offer`
-/
namespace Verif.Issuer
open Prog

/-- What `create_offer` stores under the new code. -/
def CreateOffer.offeredState (req : CreateOfferRequest) (items : Option (List AuthorizedItem)) (tx : Option String)
    (now : Int) : State :=
  { expiresAt := now + authorizedDur, subjectId := req.subjectId, stage := .offered { items, txCode := tx } }

/-- What `create_offer` stores for an offer sent by reference. -/
def CreateOffer.pendingState (req : CreateOfferRequest) (offer : CredentialOffer) (now : Int) : State :=
  { expiresAt := now + authorizedDur, subjectId := req.subjectId, stage := .pending offer }

/-- Whether a transaction code is made. -/
def CreateOffer.wantsTx (req : CreateOfferRequest) : Bool :=
  req.txCodeRequired && (CreateOffer.grants req).contains .preAuthorizedCode

/-- Whether an offer is saved. -/
def CreateOffer.saves (req : CreateOfferRequest) : Bool :=
  (CreateOffer.grants req).contains .preAuthorizedCode || (CreateOffer.grants req).contains .authorizationCode

theorem CreateOffer.txCode_ok {P : Provider} {req : CreateOfferRequest} {e : Env} {w w' : World State}
    {tx : Option String} :
    (CreateOffer.txCode P req).run e w = (.ok tx, w') ↔
      tx = (if wantsTx req then some (P.txCode (e.rng w.drawn)) else none) ∧
      w' = (if wantsTx req then { w with drawn := w.drawn + 1 } else w) := by
  unfold CreateOffer.txCode
  by_cases h : wantsTx req = true
  · have h' := h
    simp only [wantsTx] at h'
    simp only [h', if_true, h, run_bind_ok, run_drawE_ok, run_pure_ok]
    constructor
    · rintro ⟨_, _, ⟨rfl, rfl⟩, rfl, rfl⟩; exact ⟨rfl, rfl⟩
    · rintro ⟨rfl, rfl⟩; exact ⟨_, _, ⟨rfl, rfl⟩, rfl, rfl⟩
  · have h' := h
    simp only [wantsTx] at h'
    rw [if_neg h', if_neg h, if_neg h, run_pure_ok]
    constructor
    · rintro ⟨rfl, rfl⟩; exact ⟨rfl, rfl⟩
    · rintro ⟨rfl, rfl⟩; exact ⟨rfl, rfl⟩

theorem CreateOffer.saveOffer_ok {P : Provider} {req : CreateOfferRequest} {offer : CredentialOffer} {tx : Option String}
    {e : Env} {w w' : World State} {u : Unit} :
    (CreateOffer.saveOffer P req offer tx).run e w = (.ok u, w') ↔
      (saves req = false ∧ w' = w) ∨
      (saves req = true ∧ ∃ items key, offerItems P req = .ok items ∧ stateKey offer.grants = .ok key ∧
        e.fault w.ops = .ok ∧
        w' = { w with store := upd w.store key (some (offeredState req items tx w.now)), ops := w.ops + 1 }) := by
  unfold CreateOffer.saveOffer
  by_cases h : saves req = true
  · have h' := h
    simp only [saves] at h'
    simp only [h', if_true, h, run_bind_ok, run_lift_ok, run_nowE_ok, run_putE_ok]
    constructor
    · rintro ⟨items, _, ⟨h1, rfl⟩, key, _, ⟨h2, rfl⟩, t, _, ⟨rfl, rfl⟩, h3, rfl⟩
      exact .inr ⟨trivial, items, key, h1, h2, h3, rfl⟩
    · rintro (⟨h, _⟩ | ⟨_, items, key, h1, h2, h3, rfl⟩)
      · cases h
      · exact ⟨items, _, ⟨h1, rfl⟩, key, _, ⟨h2, rfl⟩, _, _, ⟨rfl, rfl⟩, h3, rfl⟩
  · have h' := h
    simp only [saves] at h'
    rw [if_neg h', run_pure_ok]
    simp [h]

theorem CreateOffer.respond_ok {req : CreateOfferRequest} {offer : CredentialOffer} {tx : Option String}
    {e : Env} {w w' : World State} {resp : CreateOfferResponse} :
    (CreateOffer.respond req offer tx).run e w = (.ok resp, w') ↔
      (req.sendType = .byVal ∧ resp = { offerType := .object offer, txCode := tx } ∧ w' = w) ∨
      (req.sendType = .byRef ∧ e.fault w.ops = .ok ∧
        resp = { offerType := .uri (req.credentialIssuer ++ "/credential_offer/" ++ e.rng w.drawn), txCode := tx } ∧
        w' = { w with store := upd w.store (e.rng w.drawn) (some (pendingState req offer w.now)),
                      drawn := w.drawn + 1, ops := w.ops + 1 }) := by
  unfold CreateOffer.respond
  cases h : req.sendType with
  | byVal =>
    simp only [run_pure_ok]
    constructor
    · rintro ⟨rfl, rfl⟩; exact .inl ⟨trivial, rfl, rfl⟩
    · rintro (⟨_, rfl, rfl⟩ | ⟨h, _⟩)
      · exact ⟨rfl, rfl⟩
      · cases h
  | byRef =>
    simp only [run_bind_ok, run_nowE_ok, run_putE_ok, run_drawE_ok, run_pure_ok]
    constructor
    · rintro ⟨_, _, ⟨rfl, rfl⟩, _, _, ⟨rfl, rfl⟩, _, _, ⟨h1, rfl⟩, rfl, rfl⟩
      exact .inr ⟨trivial, h1, rfl, rfl⟩
    · rintro (⟨h, _⟩ | ⟨_, h1, rfl, rfl⟩)
      · cases h
      · exact ⟨_, _, ⟨rfl, rfl⟩, _, _, ⟨rfl, rfl⟩, (), _, ⟨h1, rfl⟩, rfl, rfl⟩

/-- Exactly when `create_offer` succeeds, and with what. -/
theorem createOffer_ok_iff {P : Provider} {req : CreateOfferRequest} {e : Env} {w w' : World State}
    {resp : CreateOfferResponse} :
    (createOffer P req).run e w = (.ok resp, w') ↔
      ∃ iss srv offer tx w1 w2 w3, P.issuer req.credentialIssuer = some iss ∧ P.server req.credentialIssuer = some srv ∧
        CreateOffer.verify iss srv req = .ok () ∧
        CreateOffer.credentialOffer iss req (e.rng w.drawn) = .ok offer ∧ w1 = { w with drawn := w.drawn + 1 } ∧
        (CreateOffer.txCode P req).run e w1 = (.ok tx, w2) ∧
        (CreateOffer.saveOffer P req offer tx).run e w2 = (.ok (), w3) ∧
        (CreateOffer.respond req offer tx).run e w3 = (.ok resp, w') := by
  simp only [createOffer, CreateOffer.process, run_bind_ok, run_lift_ok, orErr_ok, run_drawE_ok]
  constructor
  · rintro ⟨iss, _, ⟨h1, rfl⟩, srv, _, ⟨h2, rfl⟩, _, _, ⟨h3, rfl⟩, _, _, ⟨rfl, rfl⟩, offer, _, ⟨h4, rfl⟩, tx, _, h5, _, _, h6, h7⟩
    exact ⟨iss, srv, offer, tx, _, _, _, h1, h2, h3, h4, rfl, h5, h6, h7⟩
  · rintro ⟨iss, srv, offer, tx, _, _, _, h1, h2, h3, h4, rfl, h5, h6, h7⟩
    exact ⟨iss, _, ⟨h1, rfl⟩, srv, _, ⟨h2, rfl⟩, (), _, ⟨h3, rfl⟩, _, _, ⟨rfl, rfl⟩, offer, _, ⟨h4, rfl⟩, tx, _, h5, (), _, h6, h7⟩

theorem CreateOffer.credentialOffer_ok {iss : Issuer} {req : CreateOfferRequest} {code : String} {o : CredentialOffer}
    (h : CreateOffer.credentialOffer iss req code = .ok o) :
    o.credentialIssuer = req.credentialIssuer ∧ o.configIds = req.configIds ∧
    (∀ g, o.grants = some g →
      (∀ a, g.authorizationCode = some a → GrantType.authorizationCode ∈ grants req ∧ a.issuerState = some code) ∧
      (∀ p, g.preAuthorizedCode = some p →
        GrantType.preAuthorizedCode ∈ grants req ∧ p.preAuthorizedCode = code ∧ p.txCode = req.txCodeRequired)) ∧
    (GrantType.authorizationCode ∈ grants req → ∃ g a, o.grants = some g ∧ g.authorizationCode = some a) ∧
    (GrantType.preAuthorizedCode ∈ grants req → ∃ g p, o.grants = some g ∧ g.preAuthorizedCode = some p) := by
  simp only [CreateOffer.credentialOffer, Except.bind_ok] at h
  obtain ⟨srv, _, h⟩ := h
  simp only [pure, Except.pure, Except.ok.injEq] at h
  subst h
  by_cases hp : GrantType.preAuthorizedCode ∈ CreateOffer.grants req <;>
  by_cases ha : GrantType.authorizationCode ∈ CreateOffer.grants req <;>
  simp [hp, ha]

/-- Exactly when `credential_offer` succeeds. -/
theorem credentialOffer_ok_iff {req : CredentialOfferRequest} {e : Env} {w w' : World State} {o : CredentialOffer} :
    (credentialOffer req).run e w = (.ok o, w') ↔
      ∃ s, e.fault w.ops = .ok ∧ e.fault (w.ops + 1) = .ok ∧ w.store req.id = some s ∧ Live s w.now ∧
        s.stage = .pending o ∧ o.credentialIssuer = req.credentialIssuer ∧
        w' = { w with store := upd w.store req.id none, ops := w.ops + 2 } := by
  have hp : ∀ s, pendingOffer s = .ok o ↔ s.stage = .pending o := by
    intro s; unfold pendingOffer; split <;> simp_all
  simp only [credentialOffer, run_bind_ok, run_lift_ok, run_getE_ok, run_purgeE_ok, run_nowE_ok, run_pure_ok, require_ok,
    Bool.not_eq_true', isExpired_false_iff, beq_iff_eq]
  constructor
  · rintro ⟨s, _, ⟨h1, h2, rfl⟩, _, _, ⟨h3, rfl⟩, _, _, ⟨rfl, rfl⟩, _, _, ⟨h4, rfl⟩, o', _, ⟨h5, rfl⟩, _, _, ⟨h6, rfl⟩, rfl, rfl⟩
    exact ⟨s, h1, h3, h2, h4, (hp s).1 h5, h6, rfl⟩
  · rintro ⟨s, h1, h3, h2, h4, h5, h6, rfl⟩
    exact ⟨s, _, ⟨h1, h2, rfl⟩, (), _, ⟨h3, rfl⟩, _, _, ⟨rfl, rfl⟩, (), _, ⟨h4, rfl⟩, o, _, ⟨(hp s).2 h5, rfl⟩, (), _,
      ⟨h6, rfl⟩, rfl, rfl⟩

end Verif.Issuer
