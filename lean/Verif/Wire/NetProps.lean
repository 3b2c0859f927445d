import Verif.Wire.NetLemmas
import Verif.Holder.Asks
import Verif.Interop.Props
/-!
# C127: the wallet and the issuer connected by text
-/
namespace Verif.Wire
open Interop (Net)
open Prog

/-! ### Specification -/

/-- What the issuer publishes, at whatever time, is what its endpoints work with, and can be put in words. -/
def TextNet.Published (n : TextNet) : Prop :=
  ∀ i iss, (∀ md, (n.provider i).issuer iss = some md → issuerSeen (n.page md) = md ∧ (n.page md).Sound ∧ PlainIssuer md) ∧
    ∀ s, (n.provider i).server iss = some s → serverSeen (n.serverPage s) = s

/-- Other clients of the issuer send text as well. -/
def TextNet.Heard (n : TextNet) : Prop := ∀ i, ∀ s ∈ n.others i, FromWire s.req

/-- What the wallet's user asks for can be put in words. -/
def SoundUse : Holder.Req → Prop
  | .accept r => ∀ l, r.accept = some l → ∀ s ∈ l, ∀ m, s.claims = some m → SoundDict (claimsOf m)
  | .authorize r => ∀ l, r.authorizationDetails = some l → ∀ d ∈ l, (detailOf d).Sound
  | _ => True

/-- A flow whose metadata and details can be put in words. -/
def SoundFlow : Holder.HVal → Prop
  | .issuance i => PlainIssuer i.issuer ∧ ∀ l, i.accepted = some l → ∀ d ∈ l, (detailOf d).Sound
  | .presentation _ => True

/-- Metadata that can be put in words. -/
def SoundReply : (c : Holder.Call) → c.Reply → Prop
  | .metadata _, i => PlainIssuer i
  | _, _ => True

/-! ### The issuer's side -/

abbrev AllStorable (w : World Issuer.State) : Prop := ∀ k v, w.store k = some v → Storable v

theorem run_keeps {α : Type} {p : Prog Issuer.State α} (h : p.Keeps Storable) (e : Env) {w : World Issuer.State} (hw : AllStorable w) : AllStorable (p.run e w).2 :=
  (Guar.run h hw (fun _ v h => h v rfl) fun _ _ _ => trivial).1

theorem step_keeps (e : Env) {w : World Issuer.State} (hw : AllStorable w) {s : Issuer.Step} (hs : SoundReq s.req) : AllStorable (Issuer.step e w s).2 :=
  run_keeps (call_keeps s.provider hs) e hw

theorem exec_keeps (e : Env) {l : List Issuer.Step} (hl : ∀ s ∈ l, FromWire s.req) {w : World Issuer.State} (hw : AllStorable w) : AllStorable (Issuer.exec e w l) := by
  induction l generalizing w with
  | nil => exact hw
  | cons s l ih => exact ih (fun x hx => hl x (.tail _ hx)) (step_keeps e hw (fromWire_sound (hl s (.head _))))

theorem Returns.pure {V α : Type} {t : Int} {a : α} {Q : α → Prop} (h : Q a) : Returns t (Pure.pure a : Prog V α) Q := h

/-- What the issuer's endpoints answer can be put in words. -/
theorem answers_sound {n : TextNet} (hp : n.Published) (i : Nat) {w : World Issuer.State} (hw : AllStorable w) (r : Issuer.Req) :
    ∀ a, (Issuer.step n.env w { provider := n.provider i, req := r }).1 = .ok a → SoundResp n a ∧ ∀ md, a = .metadata md → PlainIssuer md := by
  cases r with
  | token r =>
    have h : Guar (fun _ v => Storable v) Stores (fun _ => True) (Issuer.call (n.provider i) (.token r))
        fun a => SoundResp n a ∧ ∀ md, a = .metadata md → PlainIssuer md := by
      refine Guar.bind (Issuer.token_guar stores_none fun s k m _ t' items _ _ _ _ _ =>
        stores_some (s := Issuer.Token.stored s k m t' items) (Issuer.authorizedCredentials_nodup items)) fun x hx => ?_
      obtain ⟨s, t, items, k, m, hs, -, hi, rfl, -, -⟩ := hx
      exact ⟨token_sound (granted_sound hs hi), fun _ h => nomatch h⟩
    exact (Guar.run (w := Issuer.World.wait w 0) h hw (fun _ v h => h v rfl) fun _ _ _ => trivial).2.2.1
  | credential r => exact Returns.run (p := Issuer.call (n.provider i) (.credential r)) ((credential_returns _ _ r).bind fun x hx => Returns.pure ⟨hx, fun _ h => nomatch h⟩) n.env
  | deferred r => exact Returns.run (p := Issuer.call (n.provider i) (.deferred r)) ((deferred_returns _ _ r).bind fun x hx => Returns.pure ⟨hx, fun _ h => nomatch h⟩) n.env
  | metadata c =>
    refine Returns.run (w := Issuer.World.wait w 0) (Returns.bind (Q := fun x => (n.provider i).issuer c = some x) ?_ fun x hx => ?_) n.env
    · unfold Issuer.metadata
      cases h : (n.provider i).issuer c with
      | none => trivial
      | some x => exact rfl
    · exact ⟨⟨((hp i c).1 x hx).1, ((hp i c).1 x hx).2.1⟩, by rintro _ ⟨⟩; exact ((hp i c).1 x hx).2.2⟩
  | oauthServer c =>
    refine Returns.run (w := Issuer.World.wait w 0) (Returns.bind (Q := fun x => (n.provider i).server c = some x) ?_ fun x hx => ?_) n.env
    · unfold Issuer.oauthServer
      cases h : (n.provider i).server c with
      | none => trivial
      | some x => exact rfl
    · exact ⟨(hp i c).2 x hx, fun _ h => nomatch h⟩
  | createOffer r => exact Returns.run (p := Issuer.call (n.provider i) (.createOffer r)) (Returns.after fun x => Returns.pure ⟨trivial, fun _ h => nomatch h⟩) n.env
  | credentialOffer r => exact Returns.run (p := Issuer.call (n.provider i) (.credentialOffer r)) (Returns.after fun x => Returns.pure ⟨trivial, fun _ h => nomatch h⟩) n.env
  | par r => exact Returns.run (p := Issuer.call (n.provider i) (.par r)) (Returns.after fun x => Returns.pure ⟨trivial, fun _ h => nomatch h⟩) n.env
  | authorize r => exact Returns.run (p := Issuer.call (n.provider i) (.authorize r)) (Returns.after fun x => Returns.pure ⟨trivial, fun _ h => nomatch h⟩) n.env
  | notification r => exact Returns.run (p := Issuer.call (n.provider i) (.notification r)) (Returns.after fun x => Returns.pure ⟨trivial, fun _ h => nomatch h⟩) n.env
  | register r => exact Returns.run (p := Issuer.call (n.provider i) (.register r)) (Returns.after fun x => Returns.pure ⟨trivial, fun _ h => nomatch h⟩) n.env

/-! ### The connection -/

theorem soundReq_of {c : Holder.Call} (h : SoundCall c) {r : Issuer.Req} (hr : Interop.request c = some r) : SoundReq r := by
  cases c <;> cases hr <;> first | exact h | trivial

theorem serve_keeps {n : TextNet} (ho : n.Heard) (i : Nat) {w : World Issuer.State} (hw : AllStorable w) {r : Issuer.Req} (hr : SoundReq r) :
    AllStorable (n.serve i w r).2 := step_keeps n.env (exec_keeps n.env (ho i) hw) hr

theorem after_same {n : TextNet} (ho : n.Heard) {calls : List Holder.Call} (hc : ∀ c ∈ calls, SoundCall c) {s : Nat × World Issuer.State} (hs : AllStorable s.2) :
    calls.foldl n.next s = calls.foldl n.toNet.next s ∧ AllStorable (calls.foldl n.toNet.next s).2 := by
  induction calls generalizing s with
  | nil => exact ⟨rfl, hs⟩
  | cons c l ih =>
    have h1 : n.next s c = n.toNet.next s c := by simp only [TextNet.next, Net.next, carried_eq (hc c (.head _))]; rfl
    simp only [List.foldl_cons, h1]
    refine ih (fun x hx => hc x (.tail _ hx)) ?_
    simp only [Net.next]
    split
    · exact hs
    · rename_i r hr
      exact serve_keeps ho s.1 hs (soundReq_of (hc c (.head _)) hr)

theorem oracle_same {n : TextNet} (hp : n.Published) (ho : n.Heard) {w : World Issuer.State} (hw : AllStorable w) {skip : Nat} {log : List Holder.Entry}
    {recent : List Holder.Event} (hc : ∀ c ∈ Net.made skip log recent, SoundCall c) {c : Holder.Call} (h : SoundCall c) :
    n.oracle w skip log recent c = n.toNet.oracle w skip log recent c ∧
      ∀ r, n.toNet.oracle w skip log recent c = some r → SoundReply c r := by
  obtain ⟨h1, h2⟩ := after_same ho hc (s := (0, w)) hw
  have h1 : n.after w (Net.made skip log recent) = n.toNet.after w (Net.made skip log recent) := h1
  have h2 : AllStorable (n.toNet.after w (Net.made skip log recent)).2 := h2
  unfold TextNet.oracle Net.oracle
  rw [carried_eq h, h1]
  cases hr : Interop.request c with
  | none => exact ⟨rfl, fun x _ => by cases c <;> first | trivial | cases hr⟩
  | some r =>
    have h3 := answers_sound hp (n.toNet.after w (Net.made skip log recent)).1 (exec_keeps n.env (ho (n.toNet.after w (Net.made skip log recent)).1) h2) r
    refine ⟨reply_eq n c fun a ha => (h3 a ha).1, fun x hx => ?_⟩
    cases c with
    | metadata i =>
      have hx : Interop.reply n.encode (.metadata i) (n.toNet.serve (n.toNet.after w (Net.made skip log recent)).1 (n.toNet.after w (Net.made skip log recent)).2 r).1 = some x := hx
      have h3 : ∀ a, (n.toNet.serve (n.toNet.after w (Net.made skip log recent)).1 (n.toNet.after w (Net.made skip log recent)).2 r).1 = .ok a →
        SoundResp n a ∧ ∀ md, a = .metadata md → PlainIssuer md := h3
      generalize n.toNet.serve (n.toNet.after w (Net.made skip log recent)).1 (n.toNet.after w (Net.made skip log recent)).2 r = q at hx h3
      obtain ⟨a, q⟩ := q
      cases a with
      | error e => cases hx
      | ok a =>
        cases a with
        | metadata md => cases hx; exact (h3 _ rfl).2 _ rfl
        | _ => cases hx
    | _ => trivial

/-! ### The wallet's side -/

abbrev Fits {α : Type} (p : Holder.HProg α) (Q : α → Prop) : Prop := Holder.Asks SoundFlow SoundCall SoundReply p Q

open Holder (Asks)

theorem fits_lift {α β : Type} {r : Holder.HRes α} {f : α → Holder.HProg β} {Q : β → Prop} (h : ∀ a, r = .ok a → Fits (f a) Q) : Fits (Holder.HProg.lift r >>= f) Q :=
  Asks.bind (Asks.lift fun _ h => h) h

theorem fits_setIssuer {i : Holder.Issuance} {c : String} : Fits (Holder.setIssuer i c) fun j => PlainIssuer j.issuer ∧ j.accepted = i.accepted := by
  unfold Holder.setIssuer
  refine Asks.bind (Asks.callE trivial) fun md hmd => Asks.bind (Asks.callE trivial) fun sv _ => Asks.pure ⟨hmd, rfl⟩

theorem fits_new {c : String} : Fits (Holder.newIssuance c) fun j => j.accepted = none := by
  unfold Holder.newIssuance
  exact Asks.bind Asks.drawE fun _ _ => Asks.pure rfl

theorem fits_offer (r : Holder.OfferRequest) : Fits (Holder.offer r) fun _ => True := by
  unfold Holder.offer
  refine fits_lift fun _ _ => Asks.bind fits_new fun i hi => Asks.bind fits_setIssuer fun j hj => Asks.bind (Asks.putE ⟨hj.1, ?_⟩) fun _ _ => fits_lift fun _ _ => Asks.pure trivial
  intro l hl
  have : j.accepted = some l := hl
  rw [hj.2] at this
  exact nomatch hi ▸ this

theorem specDetails_sound {configs : Dict Verif.CredentialConfiguration} (hc : ∀ p ∈ configs, PlainFormat p.2.format) {l : List Holder.AuthorizationSpec}
    (hl : ∀ s ∈ l, ∀ m, s.claims = some m → SoundDict (claimsOf m)) {ds : List Verif.AuthorizationDetail} (h : Holder.specDetails configs l = .ok ds) :
    ∀ d ∈ ds, (detailOf d).Sound := by
  induction l generalizing ds with
  | nil => cases h; exact fun _ h => nomatch h
  | cons s l ih =>
    obtain ⟨cl, h1, h⟩ := Holder.okBind h
    obtain ⟨rest, h2, h⟩ := Holder.okBind h
    cases h
    intro d hd
    rcases List.mem_cons.1 hd with rfl | hd
    · unfold Holder.specClaims at h1
      cases hm : s.claims with
      | none => rw [hm] at h1; cases h1; trivial
      | some m =>
        have hs := hl s (.head _) m hm
        rw [hm] at h1
        cases hg : configs.get? s.configId with
        | none => simp only [hg] at h1; cases h1
        | some c =>
          simp only [hg, Except.ok.injEq] at h1
          have hf := hc _ (Dict.mem_of_get? hg)
          subst h1
          cases hfm : c.format with
          | vcSdJwt t x => exact absurd hfm (hf.2 t x)
          | _ => exact hs
    · exact ih (fun s hs => hl s (.tail _ hs)) h2 d hd

theorem fits_accept {r : Holder.AcceptRequest} (h : SoundUse (.accept r)) : Fits (Holder.accept r) fun _ => True := by
  unfold Holder.accept
  refine Asks.bind (Asks.getIssuance fun _ h => h) fun i hi => fits_lift fun _ _ => fits_lift fun _ _ => fits_lift fun a ha => Asks.bind (Asks.putE ⟨hi.1, ?_⟩) fun _ _ => Asks.pure trivial
  intro l hl
  have hl : a = some l := hl
  unfold Holder.narrowScope at ha
  split at ha
  · cases ha; cases hl
  · rename_i specs hs
    obtain ⟨ds, h1, h2⟩ := Holder.okBind ha
    cases h2
    cases hl
    exact specDetails_sound hi.1 (h specs hs) h1

theorem fits_pin (r : Holder.PinRequest) : Fits (Holder.pin r) fun _ => True := by
  unfold Holder.pin
  exact Asks.bind (Asks.getIssuance fun _ h => h) fun i hi => fits_lift fun _ _ => Asks.bind (Asks.putE hi) fun _ _ => Asks.pure trivial

theorem fits_token (k : String) : Fits (Holder.token k) fun _ => True := by
  unfold Holder.token
  refine Asks.bind (Asks.getIssuance fun _ h => h) fun i hi => fits_lift fun _ _ => fits_lift fun r hr => Asks.bind (Asks.callE ?_) fun t _ => fits_lift fun _ _ => Asks.bind (Asks.putE hi) fun _ _ => Asks.pure trivial
  unfold Holder.tokenRequest at hr
  obtain ⟨g, -, hr⟩ := Holder.okBind hr
  obtain ⟨c, -, hr⟩ := Holder.okBind hr
  cases hr
  exact hi.2

theorem formatClaims_sound {f : Verif.Format} (h : PlainFormat f) {id : String} : (detailOf { credential := .configurationId id (Holder.formatClaims f) }).Sound := by
  unfold Holder.formatClaims
  cases f with
  | vcSdJwt t x => exact absurd rfl (h.2 t x)
  | isoMdl t x =>
    cases x with
    | none => trivial
    | some m => exact h.1
  | jwtVcJson d =>
    cases hd : (Verif.Format.jwtVcJson d).claims with
    | none => trivial
    | some m => exact h.1
  | ldpVc d =>
    cases hd : (Verif.Format.ldpVc d).claims with
    | none => trivial
    | some m => exact h.1
  | jwtVcJsonLd d =>
    cases hd : (Verif.Format.jwtVcJsonLd d).claims with
    | none => trivial
    | some m => exact h.1

theorem offerDetails_sound {configs : Dict Verif.CredentialConfiguration} (hc : ∀ p ∈ configs, PlainFormat p.2.format) {ids : List String} {ds : List Verif.AuthorizationDetail}
    (h : Holder.offerDetails configs ids = .ok ds) : ∀ d ∈ ds, (detailOf d).Sound := by
  induction ids generalizing ds with
  | nil => cases h; exact fun _ h => nomatch h
  | cons id ids ih =>
    obtain ⟨c, h1, h⟩ := Holder.okBind h
    obtain ⟨rest, h2, h⟩ := Holder.okBind h
    cases h
    intro d hd
    rcases List.mem_cons.1 hd with rfl | hd
    · cases hg : configs.get? id with
      | none => rw [hg] at h1; cases h1
      | some c' =>
        rw [hg] at h1
        cases h1
        exact formatClaims_sound (hc _ (Dict.mem_of_get? hg))
    · exact ih h2 d hd

theorem fits_startFlow {r : Holder.AuthorizeRequest} : Fits (Holder.startFlow r) fun i => PlainIssuer i.issuer := by
  unfold Holder.startFlow
  split
  · exact Asks.bind (Asks.getIssuance fun _ h => h) fun i hi => fits_lift fun _ _ => Asks.pure hi.1
  · exact fits_lift fun _ _ => Asks.bind fits_new fun i _ => Asks.bind fits_setIssuer fun j hj => Asks.pure hj.1

theorem fits_authorize {P : Holder.Provider} {r : Holder.AuthorizeRequest} (h : SoundUse (.authorize r)) : Fits (Holder.authorize P r) fun _ => True := by
  unfold Holder.authorize
  refine Asks.bind fits_startFlow fun i hi => Asks.bind Asks.drawE fun v _ => ?_
  refine fits_lift fun q hq => Asks.bind (Asks.callE ?_) fun a _ => Asks.bind (Asks.callE h) fun t _ => fits_lift fun _ _ => Asks.bind (Asks.putE ⟨hi, h⟩) fun _ _ => Asks.pure trivial
  unfold Holder.authorizationRequest at hq
  obtain ⟨_, -, hq⟩ := Holder.okBind hq
  obtain ⟨ds, hd, hq⟩ := Holder.okBind hq
  obtain ⟨_, -, hq⟩ := Holder.okBind hq
  obtain ⟨_, -, hq⟩ := Holder.okBind hq
  obtain ⟨_, -, hq⟩ := Holder.okBind hq
  cases hq
  intro l hl
  have hl : ds = some l := hl
  unfold Holder.requestDetails at hd
  split at hd
  · cases hd; cases hl
  · obtain ⟨l', hd', h'⟩ := Holder.okBind hd
    clear hd
    cases h'
    cases hl
    unfold Holder.authorizationDetails at hd'
    split at hd'
    · rename_i l' hl'
      cases hd'
      exact h _ hl'
    · split at hd'
      · cases hd'
      · exact offerDetails_sound hi hd'

theorem fits_logo (o : Option String) : Fits (Holder.fetchLogo o) fun _ => True := by
  unfold Holder.fetchLogo
  split
  · exact Asks.pure trivial
  · exact ⟨trivial, fun _ _ => trivial⟩

theorem fits_storable (P : Holder.Provider) (c : Verif.CredentialConfiguration) (k : Kind Verif.Vc) : Fits (Holder.storable P c k) fun _ => True := by
  unfold Holder.storable
  refine fits_lift fun p _ => ?_
  split
  · trivial
  · refine fits_lift fun _ _ => ?_
    split
    · trivial
    · refine Asks.bind (Q := fun _ => True) ?_ fun id _ => fits_lift fun uri _ => Asks.bind (fits_logo uri) fun _ _ => Asks.pure trivial
      unfold Holder.storableId
      split
      · exact Asks.pure trivial
      · exact Asks.bind Asks.drawE fun _ _ => Asks.pure trivial

theorem fits_storables (P : Holder.Provider) (c : Verif.CredentialConfiguration) (l : List (Kind Verif.Vc)) : Fits (Holder.storables P c l) fun _ => True := by
  induction l with
  | nil => exact Asks.pure trivial
  | cons k l ih => exact Asks.bind (fits_storable P c k) fun _ _ => Asks.bind ih fun _ _ => Asks.pure trivial

theorem fits_process (P : Holder.Provider) (c : Verif.CredentialConfiguration) (r : Holder.CredentialResponse) : Fits (Holder.process P c r) fun _ => True := by
  unfold Holder.process
  split
  · exact Asks.bind (fits_storable P c _) fun _ _ => Asks.pure trivial
  · exact Asks.bind (fits_storables P c _) fun _ _ => Asks.pure trivial
  · exact Asks.pure trivial

theorem fits_byFormat {P : Holder.Provider} {i : Holder.Issuance} (hi : SoundFlow (.issuance i)) (r : Holder.CredentialsRequest) (jwt : String) :
    Fits (Holder.byFormat P i r jwt) fun j => SoundFlow (.issuance j) := by
  unfold Holder.byFormat
  refine fits_lift fun _ _ => fits_lift fun f _ => fits_lift fun e he => Asks.bind (Asks.callE ?_) fun a _ => Asks.bind (fits_process P e.2 a) fun out _ => Asks.pure hi
  unfold Holder.need at he
  split at he
  · rename_i x hx
    cases he
    exact (hi.1 _ (List.mem_of_find?_eq_some hx)).1
  · cases he

theorem fits_byIdentifiers {P : Holder.Provider} {jwt cfg : String} {c : Verif.CredentialConfiguration} {wanted : Option (List String)} {ids : List String} {i : Holder.Issuance}
    (hi : SoundFlow (.issuance i)) : Fits (Holder.byIdentifiers P jwt cfg c wanted ids i) fun j => SoundFlow (.issuance j) := by
  induction ids generalizing i with
  | nil => exact Asks.pure hi
  | cons id ids ih =>
    rw [Holder.byIdentifiers]
    split
    · exact Asks.bind (Asks.callE trivial) fun r _ => Asks.bind (fits_process P c r) fun out _ => ih hi
    · exact ih hi

theorem fits_byDetails {P : Holder.Provider} {jwt : String} {wanted : Option (List String)} {l : List Issuer.AuthorizedDetail} {i : Holder.Issuance}
    (hi : SoundFlow (.issuance i)) : Fits (Holder.byDetails P jwt wanted l i) fun j => SoundFlow (.issuance j) := by
  induction l generalizing i with
  | nil => exact Asks.pure hi
  | cons d l ih =>
    rw [Holder.byDetails]
    exact fits_lift fun cfg _ => fits_lift fun c _ => Asks.bind (fits_byIdentifiers hi) fun j hj => ih hj

theorem fits_credentials (P : Holder.Provider) (r : Holder.CredentialsRequest) : Fits (Holder.credentials P r) fun _ => True := by
  unfold Holder.credentials
  refine Asks.bind (Asks.getIssuance fun _ h => h) fun i hi => fits_lift fun _ _ => Asks.bind Asks.nowE fun t _ => fits_lift fun jwt _ => ?_
  refine Asks.bind (Q := fun j => SoundFlow (.issuance j)) ?_ fun j hj => Asks.bind (Asks.putE hj) fun _ _ => Asks.pure trivial
  unfold Holder.fetch
  split
  · exact fits_byFormat hi r jwt
  · unfold Holder.byIdentifier
    exact fits_lift fun l _ => fits_byDetails hi

theorem fits_deferred (P : Holder.Provider) (r : Holder.DeferredRequest) : Fits (Holder.deferred P r) fun _ => True := by
  unfold Holder.deferred
  refine Asks.bind (Asks.getIssuance fun _ h => h) fun i hi => fits_lift fun _ _ => Asks.bind (Asks.callE trivial) fun a _ => fits_lift fun c _ => ?_
  refine Asks.bind (fits_process P c a) fun out _ => Asks.bind (Q := fun _ => True) ?_ fun _ _ => Asks.pure trivial
  unfold Holder.stash
  split
  · exact Asks.purgeE
  · exact Asks.putE hi

theorem fits_outcome (i : Holder.Issuance) (ev : Holder.NotificationEvent) : Fits (Holder.notifyOutcome i ev) fun _ => True := by
  unfold Holder.notifyOutcome
  split
  · exact Asks.pure trivial
  · exact Asks.bind (Asks.callE trivial) fun _ _ => Asks.pure trivial

theorem fits_saveAll (i : Holder.Issuance) (l : List Holder.Credential) : Fits (Holder.saveAll i l) fun _ => True := by
  induction l with
  | nil => exact Asks.pure trivial
  | cons c l ih =>
    rw [Holder.saveAll]
    refine Asks.bind (Asks.callO trivial) fun o _ => ?_
    cases o with
    | some u => exact ih
    | none =>
      refine Asks.bind (Q := fun _ => True) ?_ fun _ _ => trivial
      unfold Holder.notifyFailure
      split
      · exact Asks.pure trivial
      · exact Asks.bind (Asks.callO trivial) fun _ _ => Asks.pure trivial

theorem fits_save (k : String) : Fits (Holder.save k) fun _ => True := by
  unfold Holder.save
  refine Asks.bind (Asks.getIssuance fun _ h => h) fun i hi => Asks.bind (fits_saveAll i _) fun _ _ => Asks.bind (fits_outcome i _) fun _ _ =>
    Asks.bind (Q := fun _ => True) ?_ fun _ _ => Asks.pure trivial
  unfold Holder.endFlow
  split
  · exact Asks.purgeE
  · exact Asks.pure trivial

theorem fits_cancel (k : String) : Fits (Holder.cancel k) fun _ => True := by
  unfold Holder.cancel
  exact Asks.bind (Asks.getIssuance fun _ h => h) fun i hi => Asks.bind (fits_outcome i _) fun _ _ => Asks.bind Asks.purgeE fun _ _ => Asks.pure trivial

theorem fits_request (P : Holder.Provider) (u : String) : Fits (Holder.request P u) fun _ => True := by
  unfold Holder.request
  refine fits_lift fun d _ => Asks.bind Asks.drawE fun id _ => Asks.bind (Q := fun _ => True) ?_ fun r _ => fits_lift fun f _ => Asks.bind (Asks.callE trivial) fun cs _ =>
    Asks.bind (Asks.putE trivial) fun _ _ => Asks.pure trivial
  unfold Holder.obtainRequest
  split
  · exact Asks.lift'
  · exact Asks.bind (Asks.callE trivial) fun _ _ => Asks.lift'

theorem fits_present (P : Holder.Provider) (k : String) : Fits (Holder.present P k) fun _ => True := by
  unfold Holder.present
  refine Asks.bind (Asks.getPresentation fun _ h => h) fun p _ => fits_lift fun _ _ => Asks.bind (Q := fun _ => True) ?_ fun sub _ => Asks.bind (Q := fun _ => True) ?_ fun vp _ =>
    Asks.bind Asks.nowE fun t _ => fits_lift fun jwt _ => Asks.bind (Asks.callE trivial) fun _ _ => Asks.pure trivial
  · unfold Holder.createSubmission
    split
    · trivial
    · exact Asks.bind Asks.drawE fun _ _ => Asks.pure trivial
  · unfold Holder.createVp
    refine Asks.bind Asks.drawE fun _ _ => ?_
    simp only []
    split
    · trivial
    · exact Asks.lift'

theorem fits_serve (P : Holder.Provider) {r : Holder.Req} (h : SoundUse r) : Fits (Holder.serve P r) fun _ => True := by
  cases r with
  | offer r => exact fits_offer r
  | accept r => exact fits_accept h
  | pin r => exact fits_pin r
  | token k => exact fits_token k
  | authorize r => exact fits_authorize h
  | credentials r => exact fits_credentials P r
  | deferred r => exact fits_deferred P r
  | save k => exact fits_save k
  | cancel k => exact fits_cancel k
  | request u => exact fits_request P u
  | authorizePresentation k =>
    unfold Holder.serve Holder.authorizePresentation
    exact Asks.bind (Asks.getPresentation fun _ h => h) fun p hp => fits_lift fun _ _ => Asks.bind (Asks.putE trivial) fun _ _ => Asks.pure trivial
  | present k => exact fits_present P k

theorem exec_same {n : TextNet} (hp : n.Published) (ho : n.Heard) {w : World Issuer.State} (hw : AllStorable w) {e e' : Holder.HEnv} (hr : e'.rng = e.rng)
    (hf : e'.fault = e.fault) {skip : Nat} (he : e.oracle = n.toNet.oracle w skip) (he' : e'.oracle = n.oracle w skip) {steps : List Holder.HStep}
    (hs : ∀ s ∈ steps, SoundUse s.req) {x : Holder.HWorld} (hx : ∀ k v, x.store k = some v → SoundFlow v) (hk : skip ≤ x.log.length)
    (hc : ∀ c ∈ Net.made skip x.log [], SoundCall c) : Holder.exec e' x steps = Holder.exec e x steps := by
  induction steps generalizing x with
  | nil => rfl
  | cons s l ih =>
    have h1 := Holder.run_same (e := e) (e' := e') hr hf (All := fun log recent => skip ≤ log.length ∧ ∀ c ∈ Net.made skip log recent, SoundCall c)
      (fun log recent c o h hc => ⟨h.1, fun d hd => by
        simp only [Net.made, List.map_append, ← List.append_assoc, List.map_cons, List.map_nil, List.mem_append, List.mem_singleton] at hd
        rcases hd with hd | rfl
        · exact h.2 d (by simpa only [Net.made, List.map_append, List.mem_append] using hd)
        · exact hc⟩)
      (fun log recent c h hc => by rw [he, he']; exact oracle_same hp ho hw h.2 hc) (fits_serve s.provider (hs s (.head _)))
      (w := { x with now := x.now + s.wait, recent := [] }) hx ⟨hk, hc⟩
    have h2 : Holder.step e' x s = Holder.step e x s := by simp only [Holder.step, h1.1]
    rw [Holder.exec, Holder.exec, h2]
    refine ih (fun y hy => hs y (.tail _ hy)) h1.2.1 ?_ ?_
    · simp only [Holder.step, List.length_append]
      exact Nat.le_add_right_of_le h1.2.2.1
    · intro c hc
      refine h1.2.2.2 c ?_
      simp only [Holder.step] at hc
      rw [Net.made, List.drop_append_of_le_length h1.2.2.1] at hc
      simpa [Net.made] using hc

theorem collect_sound {k : String} {oreq : Holder.OfferRequest} {tx : Option String} {want : List String} (r : Holder.Req)
    (h : r ∈ Interop.collectCalls k oreq tx want) : SoundUse r := by
  rcases List.mem_append.1 h with h | h
  · rcases List.mem_append.1 h with h | h
    · cases tx <;> simp only [Interop.beginCalls, List.cons_append, List.nil_append, List.mem_cons, List.not_mem_nil, or_false] at h
      · rcases h with rfl | rfl | rfl
        · trivial
        · exact fun _ h => nomatch h
        · trivial
      · rcases h with rfl | rfl | rfl | rfl
        · trivial
        · exact fun _ h => nomatch h
        · trivial
        · trivial
    · obtain ⟨id, -, rfl⟩ := List.mem_map.1 h
      trivial
  · rw [List.mem_singleton.1 h]
    trivial

/-! ### Properties -/

/-- **C127**. A wallet and an issuer that send each other JSON text do the same as if they handed each other the values themselves: the same calls succeed, the same
flows and credentials are stored, and the same is recorded as asked and answered, whatever the wallet is asked to do, whatever else the issuer serves meanwhile and
served before, and whatever storage faults there are. For issuers that publish what they work with, offer no selective-disclosure credentials and have claims that can be
put in words (`Published`), and users who ask for claims that can (`SoundUse`); missing are the others, see `C127_narrowed_sd_jwt_becomes_mdoc`. -/
theorem C127_text_makes_no_difference_partial {n : TextNet} (hp : n.Published) (ho : n.Heard) {history : List Issuer.Step} (hh : ∀ s ∈ history, FromWire s.req) {t0 : Int}
    {w : World Issuer.State} (hw : w = Issuer.exec n.env (Issuer.start t0) history) {x : Holder.HWorld} (hx : ∀ k v, x.store k = some v → SoundFlow v)
    {steps : List Holder.HStep} (hs : ∀ s ∈ steps, SoundUse s.req) (rng : Nat → String) (fault : Nat → Fault) :
    Holder.exec { rng, fault, oracle := n.oracle w x.log.length } x steps = Holder.exec { rng, fault, oracle := n.toNet.oracle w x.log.length } x steps := by
  refine exec_same (e := { rng, fault, oracle := n.toNet.oracle w x.log.length }) (e' := { rng, fault, oracle := n.oracle w x.log.length }) hp ho
    (w := w) ?_ rfl rfl rfl rfl hs hx (Nat.le_refl _) ?_
  · rw [hw]
    exact exec_keeps n.env hh start_empty
  · intro c hc
    simp [Net.made] at hc

/-- **C127**. The wallet of this repository collects what the issuer of this repository offered it (C101) also when they send each other JSON text. -/
theorem C127_wallet_collects_offer_over_text {n : TextNet} (hp : n.Published) (ho : n.Heard) (hfresh : Issuer.Env.Fresh n.env) {t0 : Int} {history : List Issuer.Step}
    (hh : ∀ s ∈ history, FromWire s.req) {w : World Issuer.State} (hw : w = Issuer.exec n.env (Issuer.start t0) history)
    {s : Issuer.Step} {req : Issuer.CreateOfferRequest} (hreq : s.req = .createOffer req) {oresp : Issuer.CreateOfferResponse}
    (h : (Issuer.step n.env w s).1 = .ok (.createOffer oresp)) (hpre : req.requests .preAuthorizedCode) {subj : String}
    (hsub : req.subjectId = some subj) {offer : Issuer.CredentialOffer}
    (hdel : Issuer.Delivers req.credentialIssuer (Issuer.step n.env w s).2.store oresp.offerType offer)
    {md : Verif.Issuer} {client : String} (hclient : client ≠ "") (hserves : ∀ j, Interop.Serves (n.provider j) req.credentialIssuer md client)
    (hnd : Dict.Nodup md.configs) (hknown : ∀ cid ∈ offer.configIds, ∃ cfg, (cid, cfg) ∈ md.configs) (hfi : ∀ m, n.env.fault m = .ok)
    (hids : (offer.configIds.flatMap fun cid => (s.provider.authorize subj cid).getD []).Nodup) {claims : String → Dict Verif.Json} {want : List String}
    (hwant : ∀ id ∈ want, ∃ cid ∈ offer.configIds, (∃ ids, s.provider.authorize subj cid = some ids ∧ id ∈ ids) ∧
      ∀ j, Interop.Issues (n.provider j) md subj cid id (claims id))
    {e : Holder.HEnv} {hw' : Holder.HWorld} (hx : ∀ k v, hw'.store k = some v → SoundFlow v)
    (horacle : e.oracle = n.oracle (Issuer.step n.env w s).2 hw'.log.length)
    (hsave : ∀ log recent c, n.rest log recent (.save c) = some ()) (hf : ∀ m, e.fault m = .ok) {W : Holder.Provider}
    (hu : Interop.Understands n.toNet W (Issuer.step n.env w s).2.now ((Issuer.step n.env w s).2.now + 5 * 60 * Issuer.sec + Issuer.sec))
    {oreq : Holder.OfferRequest} (hoffer : oreq.offer = offer) (hoc : oreq.clientId = client) {hist : List Holder.HStep}
    (hprov : ∀ st ∈ hist, st.provider = W) (hhist : hist.map (·.req) = Interop.collectCalls (e.rng hw'.drawn) oreq oresp.txCode want)
    (hquiet : ∀ pre, pre <+: Net.made hw'.log.length (Holder.exec e hw' hist).log [] →
      Interop.Undisturbed n.toNet (Issuer.step n.env w s).2 pre (Interop.Given offer ((Holder.exec e hw' hist).log.drop hw'.log.length))) :
    ∃ new, (Holder.exec e hw' hist).log = hw'.log ++ new ∧ (∀ en ∈ new, ∃ r, en.result = .ok r) ∧
      (Interop.savedIn new).map (fun c => (c.issuer, c.vc.subject)) =
        want.map (fun id => (req.credentialIssuer, .one { id := some (beforeHash W.kid), claims := claims id })) ∧
      (Holder.exec e hw' hist).store (e.rng hw'.drawn) = none := by
  obtain ⟨rng, fault, oracle⟩ := e
  obtain rfl : oracle = _ := horacle
  have hstep : (Issuer.step n.env w s).2 = Issuer.exec n.env (Issuer.start t0) (history ++ [s]) := by rw [Issuer.exec_append, ← hw]; rfl
  have key := C127_text_makes_no_difference_partial hp ho (history := history ++ [s])
    (by
      intro x hx
      rcases List.mem_append.1 hx with hx | hx
      · exact hh x hx
      · rw [List.mem_singleton.1 hx, hreq]; exact .createOffer req) hstep hx (steps := hist)
    (by
      intro st hst
      exact collect_sound _ (hhist ▸ List.mem_map_of_mem hst)) rng fault
  rw [key] at hquiet ⊢
  exact Interop.C101_wallet_collects_offer hfresh (w := w) ⟨t0, history, hw⟩ hreq h hpre hsub hdel hclient hserves hnd hknown hfi hids hwant
    (e := { rng, fault, oracle := n.toNet.oracle (Issuer.step n.env w s).2 hw'.log.length }) rfl hsave hf hu hoffer hoc hprov hhist hquiet

/-- C127 fails for selective-disclosure credentials: when the holder narrows the claims of one, the issuer takes the wallet's token request for one that narrows the claims of
a mobile driving licence. -/
theorem C127_narrowed_sd_jwt_becomes_mdoc (r : Issuer.TokenRequest) (id : String) (m : Dict Verif.Claim) (hm : SoundDict (claimsOf m))
    (h : r.authorizationDetails = some [{ credential := .configurationId id (some (.sdJwt m)) }]) :
    carried (.token r) = some (.token { r with authorizationDetails := some [{ credential := .configurationId id (some (.isoMdl m)) }] }) ∧
      carried (.token r) ≠ Interop.request (.token r) := by
  have e : carried (.token r) = carried (.token { r with authorizationDetails := some [{ credential := .configurationId id (some (.isoMdl m)) }] }) := by
    obtain ⟨a, b, c, d⟩ := r
    obtain rfl : d = _ := h
    rfl
  have hs : SoundCall (.token { r with authorizationDetails := some [{ credential := .configurationId id (some (.isoMdl m)) }] }) := by
    rintro l ⟨⟩ d hd
    rw [List.mem_singleton.1 hd]
    exact hm
  rw [e, carried_eq hs]
  refine ⟨rfl, ?_⟩
  obtain ⟨a, b, c, d⟩ := r
  obtain rfl : d = _ := h
  simp [Interop.request]

end Verif.Wire
