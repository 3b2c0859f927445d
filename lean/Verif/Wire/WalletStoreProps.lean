import Verif.Wire.WalletStore
import Verif.Wire.WalletStateProps
import Verif.Wire.NetProps
/-!
# C130: the wallet works the same over a store that keeps text
-/
namespace Verif.Wire
open Holder (HVal HProg HRes HEnv HWorld HStep Asks)

/-! ### Specification -/

/-- What is received in full is what the endpoints work with. -/
structure Pages.Faithful (p : Pages) : Prop where
  issuer : ∀ i, issuerSeen (p.issuer i) = i
  server : ∀ s, serverSeen (p.server s) = s
  display : ∀ d, displaySeen (p.display d) = d
  vc : ∀ v, vcSeen (p.vc v) = v

/-- A credential that can be put in words. -/
def Pages.Worded (p : Pages) (v : Verif.Vc) : Prop := (p.vc v).Sound ∧ (p.vc v).Numeric

/-- Answers that can be put in words: metadata (in which no format is for selective disclosure), token responses, lifetimes of nonces and credentials the wallet's
storage hands out. -/
def Pages.SoundNews (p : Pages) : (c : Holder.Call) → c.Reply → Prop
  | .metadata _, i => PlainIssuer i ∧ (p.issuer i).Sound
  | .token _, t => (tokenResponseOf t).Sound
  | .credential _, r => SoundI64 r.cNonceExpiresIn
  | .deferred _, r => SoundI64 r.cNonceExpiresIn
  | .find _, l => ∀ c : Holder.Credential, c ∈ (show List Holder.Credential from l) → p.Worded c.vc
  | _, _ => True

/-- What the wallet decodes with its keys can be put in words: it was read from JSON. -/
structure Pages.SoundKeys (p : Pages) (P : Holder.Provider) : Prop where
  credential : ∀ t c, P.jose.decodeVc t = some c → p.Worded c.vc
  signed : ∀ t r, P.decodeRequest t = some r → SoundAsk r
  inUrl : ∀ t r, P.parseRequest t = some r → SoundAsk r

/-- A flow that can be put in words. -/
def Pages.SoundKept (p : Pages) : HVal → Prop
  | .issuance i => (p.issuer i.issuer).Sound ∧ (tokenResponseOf i.token).Sound ∧ i.deferred.Nodup ∧
      ∀ c ∈ i.credentials, p.Worded c.vc
  | .presentation s => SoundAsk s.request ∧ ∀ c ∈ s.credentials, p.Worded c.vc

/-! ### What comes back -/

theorem optList_back {α β : Type} {f : α → β} {g : β → α} (h : ∀ a, g (f a) = a) (o : Option (List α)) : (o.map (·.map f)).map (·.map g) = o := by
  cases o with
  | none => rfl
  | some l => simp only [Option.map_some, List.map_map, Function.comp_def, h, List.map_id']

theorem seconds_mul (t : Int) : seconds (t * 1000000000) = t := by
  rw [seconds, Int.fdiv_eq_ediv_of_nonneg _ (by decide)]
  exact Int.mul_ediv_cancel _ (by decide)

section
variable {p : Pages}

theorem keptSeen_of (hp : p.Faithful) (c : Holder.Credential) : Pages.keptSeen (p.keptOf c) = c := by
  obtain ⟨a, b, c, d, e, f, g⟩ := c
  simp only [Pages.keptSeen, Pages.keptOf, hp.vc, seconds_mul, optList_back hp.display]

theorem keptsSeen_of (hp : p.Faithful) (l : List Holder.Credential) : (l.map p.keptOf).map Pages.keptSeen = l := by
  simp only [List.map_map, Function.comp_def, keptSeen_of hp, List.map_id']

theorem flowSeen_of (hp : p.Faithful) (i : Holder.Issuance) : Pages.flowSeen (p.flowOf i) = i := by
  obtain ⟨a, b, c, d, e, f, g, h, i, j, k, l, m, n, o, q⟩ := i
  simp only [Pages.flowSeen, Pages.flowOf, hp.issuer, hp.server, optDetailsSeen_of, tokenResponseSeen_of, keptsSeen_of hp]

theorem shownSeen_of (hp : p.Faithful) (s : Holder.Presentation) : Pages.shownSeen (p.shownOf s) = s := by
  obtain ⟨a, b, c, d, e⟩ := s
  simp only [Pages.shownSeen, Pages.shownOf, keptsSeen_of hp]

theorem kept_all {q : Vc → Prop} {l : List Holder.Credential} (h : ∀ c ∈ l, q (p.vc c.vc)) : ∀ c ∈ l.map p.keptOf, q c.vc := by
  intro c hc
  obtain ⟨c', h', rfl⟩ := List.mem_map.1 hc
  exact h c' h'

theorem value_text (hp : p.Faithful) {v : HVal} (h : SoundFlow v ∧ p.SoundKept v) : p.value (p.text v) = some v := by
  cases v with
  | issuance i =>
    obtain ⟨⟨-, h1⟩, h2, h3, h4, h5⟩ := h
    have hw : (writeFlow p.T (p.flowOf i)).WF := wf_flow p.T (kept_all (p := p) (q := Vc.Numeric) fun c hc => (h5 c hc).2)
    have hs : (p.flowOf i).Sound := ⟨h2, mapped_sound h1, h3, h4, kept_all (p := p) (q := Vc.Sound) fun c hc => (h5 c hc).1⟩
    rw [Pages.value, Pages.text, parseJson_chars _ hw, Option.bind_some, readFlow_write p.T hs, Option.map_some, flowSeen_of hp]
    rfl
  | presentation s =>
    obtain ⟨-, h2, h5⟩ := h
    have hw : (writeShown p.T (p.shownOf s)).WF := wf_shown p.T (kept_all (p := p) (q := Vc.Numeric) fun c hc => (h5 c hc).2)
    have hs : (p.shownOf s).Sound := ⟨h2, kept_all (p := p) (q := Vc.Sound) fun c hc => (h5 c hc).1⟩
    rw [Pages.value, Pages.text, parseJson_chars _ hw, Option.bind_some, (C130_kinds_apart p.T).2, readShown_write p.T hs, Option.map_some, shownSeen_of hp]
    rfl

/-! ### What the wallet keeps -/

/-- A program of the wallet keeps what can be put in words, if it is told such things. -/
abbrev Words {α : Type} (p : Pages) (q : HProg α) (Q : α → Prop) : Prop := Asks p.SoundKept (fun _ => True) p.SoundNews q Q

variable {α β : Type}

theorem words_lift {r : HRes α} {f : α → HProg β} {Q : β → Prop} (h : ∀ a, r = .ok a → Words p (f a) Q) : Words p (Holder.HProg.lift r >>= f) Q :=
  Asks.bind (Asks.lift fun _ h => h) h

/-- A flow just started. -/
def Blank (i : Holder.Issuance) : Prop := (tokenResponseOf i.token).Sound ∧ i.deferred.Nodup ∧ i.credentials = []

theorem blank_kept {i : Holder.Issuance} (h : Blank i) (hs : (p.issuer i.issuer).Sound) : p.SoundKept (.issuance i) :=
  ⟨hs, h.1, h.2.1, by rw [h.2.2]; exact fun _ h => nomatch h⟩

theorem words_new {c : String} : Words p (Holder.newIssuance c) Blank := by
  unfold Holder.newIssuance
  refine Asks.bind Asks.drawE fun _ _ => Asks.pure ⟨⟨?_, ?_, ?_⟩, List.nodup_nil, rfl⟩
  · intro n hn
    have hn : some (0 : Int) = some n := hn
    cases hn
    decide
  · exact fun n (h : none = some n) => nomatch h
  · exact fun n (h : none = some n) => nomatch h

theorem words_setIssuer {i : Holder.Issuance} {c : String} (h : Blank i) : Words p (Holder.setIssuer i c) fun j => p.SoundKept (.issuance j) := by
  unfold Holder.setIssuer
  refine Asks.bind (Asks.callE trivial) fun md hmd => Asks.bind (Asks.callE trivial) fun sv _ => Asks.pure ?_
  exact blank_kept (i := { i with issuer := md, server := sv }) h hmd.2

theorem words_offer (r : Holder.OfferRequest) : Words p (Holder.offer r) fun _ => True := by
  unfold Holder.offer
  exact words_lift fun _ _ => Asks.bind words_new fun i hi => Asks.bind (words_setIssuer hi) fun j hj => Asks.bind (Asks.putE hj) fun _ _ => words_lift fun _ _ => Asks.pure trivial

theorem words_accept (r : Holder.AcceptRequest) : Words p (Holder.accept r) fun _ => True := by
  unfold Holder.accept
  exact Asks.bind (Asks.getIssuance fun _ h => h) fun i hi => words_lift fun _ _ => words_lift fun _ _ => words_lift fun _ _ => Asks.bind (Asks.putE hi) fun _ _ => Asks.pure trivial

theorem words_pin (r : Holder.PinRequest) : Words p (Holder.pin r) fun _ => True := by
  unfold Holder.pin
  exact Asks.bind (Asks.getIssuance fun _ h => h) fun i hi => words_lift fun _ _ => Asks.bind (Asks.putE hi) fun _ _ => Asks.pure trivial

theorem words_token (k : String) : Words p (Holder.token k) fun _ => True := by
  unfold Holder.token
  refine Asks.bind (Asks.getIssuance fun _ h => h) fun i hi => words_lift fun _ _ => words_lift fun r hr => Asks.bind (Asks.callE trivial) fun t ht => words_lift fun _ _ =>
    Asks.bind (Asks.putE ?_) fun _ _ => Asks.pure trivial
  exact ⟨hi.1, ht, hi.2.2⟩

theorem words_startFlow {r : Holder.AuthorizeRequest} : Words p (Holder.startFlow r) fun i => p.SoundKept (.issuance i) := by
  unfold Holder.startFlow
  split
  · exact Asks.bind (Asks.getIssuance fun _ h => h) fun i hi => words_lift fun _ _ => Asks.pure hi
  · exact words_lift fun _ _ => Asks.bind words_new fun i hi => Asks.bind (words_setIssuer hi) fun j hj => Asks.pure hj

theorem words_authorize (P : Holder.Provider) (r : Holder.AuthorizeRequest) : Words p (Holder.authorize P r) fun _ => True := by
  unfold Holder.authorize
  refine Asks.bind words_startFlow fun i hi => Asks.bind Asks.drawE fun v _ => words_lift fun q hq => Asks.bind (Asks.callE trivial) fun a _ =>
    Asks.bind (Asks.callE trivial) fun t ht => words_lift fun _ _ => Asks.bind (Asks.putE ?_) fun _ _ => Asks.pure trivial
  exact ⟨hi.1, ht, hi.2.2⟩

theorem words_logo (o : Option String) : Words p (Holder.fetchLogo o) fun _ => True := by
  unfold Holder.fetchLogo
  split
  · exact Asks.pure trivial
  · exact ⟨trivial, fun _ _ => trivial⟩

theorem verified_worded {P : Holder.Provider} (hP : p.SoundKeys P) {k : Kind Verif.Vc} {vc : Verif.Vc} {t : Int} (h : Holder.ofRes (Proof.verifyVc P.jose k) = .ok (.vc vc t)) :
    p.Worded vc := by
  cases k with
  | object _ => cases h
  | string token =>
    simp only [Proof.verifyVc] at h
    cases hd : P.jose.decodeVc token with
    | none => rw [hd] at h; cases h
    | some c => rw [hd] at h; cases h; exact hP.credential _ _ hd

theorem words_storable {P : Holder.Provider} (hP : p.SoundKeys P) (c : Verif.CredentialConfiguration) (k : Kind Verif.Vc) :
    Words p (Holder.storable P c k) fun x => p.Worded x.vc := by
  unfold Holder.storable
  refine words_lift fun q hq => ?_
  split
  · trivial
  · refine words_lift fun _ _ => ?_
    split
    · trivial
    · refine Asks.bind (Q := fun _ => True) ?_ fun id _ => words_lift fun uri _ => Asks.bind (words_logo uri) fun _ _ => Asks.pure (verified_worded hP hq)
      unfold Holder.storableId
      split
      · exact Asks.pure trivial
      · exact Asks.bind Asks.drawE fun _ _ => Asks.pure trivial

theorem words_storables {P : Holder.Provider} (hP : p.SoundKeys P) (c : Verif.CredentialConfiguration) (l : List (Kind Verif.Vc)) :
    Words p (Holder.storables P c l) fun xs => ∀ x ∈ xs, p.Worded x.vc := by
  induction l with
  | nil => exact Asks.pure fun _ h => nomatch h
  | cons k l ih => exact Asks.bind (words_storable hP c k) fun x hx => Asks.bind ih fun xs hxs => Asks.pure (List.forall_mem_cons.2 ⟨hx, hxs⟩)

theorem words_process {P : Holder.Provider} (hP : p.SoundKeys P) (c : Verif.CredentialConfiguration) (r : Holder.CredentialResponse) :
    Words p (Holder.process P c r) fun out => ∀ x ∈ out.1, p.Worded x.vc := by
  unfold Holder.process
  split
  · exact Asks.bind (words_storable hP c _) fun x hx => Asks.pure (List.forall_mem_singleton.2 hx)
  · exact Asks.bind (words_storables hP c _) fun xs hxs => Asks.pure hxs
  · exact Asks.pure fun _ h => nomatch h

theorem record_kept {i : Holder.Issuance} (hi : p.SoundKept (.issuance i)) {cfg : String} {out : List Holder.Credential × Option String} (ho : ∀ x ∈ out.1, p.Worded x.vc) :
    p.SoundKept (.issuance (i.record cfg out)) := by
  obtain ⟨h1, h2, h3, h4⟩ := hi
  refine ⟨h1, h2, ?_, fun c hc => ?_⟩
  · obtain ⟨cs, o⟩ := out
    cases o with
    | none => exact h3
    | some t => exact dict_insert_nodup h3 _ _
  · rcases List.mem_append.1 hc with hc | hc
    · exact h4 c hc
    · exact ho c hc

theorem renew_kept {i : Holder.Issuance} (hi : p.SoundKept (.issuance i)) {r : Holder.CredentialResponse} (hr : SoundI64 r.cNonceExpiresIn) :
    p.SoundKept (.issuance (i.renew r)) := by
  obtain ⟨h1, h2, h3⟩ := hi
  refine ⟨h1, ⟨h2.1, ?_, h2.2.2⟩, h3⟩
  intro n hn
  have hn : r.cNonceExpiresIn.or i.token.cNonceExpiresIn = some n := hn
  cases hc : r.cNonceExpiresIn with
  | none => rw [hc, Option.none_or] at hn; exact h2.2.1 n hn
  | some m => rw [hc, Option.some_or] at hn; exact hr n (hc.trans hn)

theorem words_byFormat {P : Holder.Provider} (hP : p.SoundKeys P) {i : Holder.Issuance} (hi : p.SoundKept (.issuance i)) (r : Holder.CredentialsRequest) (jwt : String) :
    Words p (Holder.byFormat P i r jwt) fun j => p.SoundKept (.issuance j) := by
  unfold Holder.byFormat
  exact words_lift fun _ _ => words_lift fun f _ => words_lift fun e he => Asks.bind (Asks.callE trivial) fun a _ => Asks.bind (words_process hP e.2 a) fun out ho =>
    Asks.pure (record_kept hi ho)

theorem words_byIdentifiers {P : Holder.Provider} (hP : p.SoundKeys P) {jwt cfg : String} {c : Verif.CredentialConfiguration} {wanted : Option (List String)} {ids : List String}
    {i : Holder.Issuance} (hi : p.SoundKept (.issuance i)) : Words p (Holder.byIdentifiers P jwt cfg c wanted ids i) fun j => p.SoundKept (.issuance j) := by
  induction ids generalizing i with
  | nil => exact Asks.pure hi
  | cons id ids ih =>
    rw [Holder.byIdentifiers]
    split
    · exact Asks.bind (Asks.callE trivial) fun r hr => Asks.bind (words_process hP c r) fun out ho => ih (renew_kept (record_kept hi ho) hr)
    · exact ih hi

theorem words_byDetails {P : Holder.Provider} (hP : p.SoundKeys P) {jwt : String} {wanted : Option (List String)} {l : List Issuer.AuthorizedDetail} {i : Holder.Issuance}
    (hi : p.SoundKept (.issuance i)) : Words p (Holder.byDetails P jwt wanted l i) fun j => p.SoundKept (.issuance j) := by
  induction l generalizing i with
  | nil => exact Asks.pure hi
  | cons d l ih =>
    rw [Holder.byDetails]
    exact words_lift fun cfg _ => words_lift fun c _ => Asks.bind (words_byIdentifiers hP hi) fun j hj => ih hj

theorem words_credentials {P : Holder.Provider} (hP : p.SoundKeys P) (r : Holder.CredentialsRequest) : Words p (Holder.credentials P r) fun _ => True := by
  unfold Holder.credentials
  refine Asks.bind (Asks.getIssuance fun _ h => h) fun i hi => words_lift fun _ _ => Asks.bind Asks.nowE fun t _ => words_lift fun jwt _ => ?_
  refine Asks.bind (Q := fun j => p.SoundKept (.issuance j)) ?_ fun j hj => Asks.bind (Asks.putE hj) fun _ _ => Asks.pure trivial
  unfold Holder.fetch
  split
  · exact words_byFormat hP hi r jwt
  · unfold Holder.byIdentifier
    exact words_lift fun l _ => words_byDetails hP hi

theorem remove_nodup {α : Type} {m : Dict α} (h : m.Nodup) (k : String) : (Holder.remove m k).Nodup :=
  List.Sublist.nodup (List.Sublist.map _ List.filter_sublist) h

theorem words_deferred {P : Holder.Provider} (hP : p.SoundKeys P) (r : Holder.DeferredRequest) : Words p (Holder.deferred P r) fun _ => True := by
  unfold Holder.deferred
  refine Asks.bind (Asks.getIssuance fun _ h => h) fun i hi => words_lift fun _ _ => Asks.bind (Asks.callE trivial) fun a _ => words_lift fun c _ => ?_
  refine Asks.bind (words_process hP c a) fun out ho => Asks.bind (Q := fun _ => True) ?_ fun _ _ => Asks.pure trivial
  unfold Holder.stash
  split
  · exact Asks.purgeE
  · have h' : p.SoundKept (.issuance { i with deferred := Holder.remove i.deferred r.transactionId }) := ⟨hi.1, hi.2.1, remove_nodup hi.2.2.1 _, hi.2.2.2⟩
    exact Asks.putE (record_kept h' ho)

theorem words_outcome (i : Holder.Issuance) (ev : Holder.NotificationEvent) : Words p (Holder.notifyOutcome i ev) fun _ => True := by
  unfold Holder.notifyOutcome
  split
  · exact Asks.pure trivial
  · exact Asks.bind (Asks.callE trivial) fun _ _ => Asks.pure trivial

theorem words_saveAll (i : Holder.Issuance) (l : List Holder.Credential) : Words p (Holder.saveAll i l) fun _ => True := by
  induction l with
  | nil => exact Asks.pure trivial
  | cons c l ih =>
    rw [Holder.saveAll]
    refine Asks.bind (Asks.callO trivial) fun o _ => ?_
    cases o with
    | some u => exact ih
    | none =>
      refine Asks.bind (Q := fun _ => True) ?_ fun _ _ => trivial
      unfold Holder.notifyFailure
      split
      · exact Asks.pure trivial
      · exact Asks.bind (Asks.callO trivial) fun _ _ => Asks.pure trivial

theorem words_save (k : String) : Words p (Holder.save k) fun _ => True := by
  unfold Holder.save
  refine Asks.bind (Asks.getIssuance fun _ h => h) fun i hi => Asks.bind (words_saveAll i _) fun _ _ => Asks.bind (words_outcome i _) fun _ _ =>
    Asks.bind (Q := fun _ => True) ?_ fun _ _ => Asks.pure trivial
  unfold Holder.endFlow
  split
  · exact Asks.purgeE
  · exact Asks.pure trivial

theorem words_cancel (k : String) : Words p (Holder.cancel k) fun _ => True := by
  unfold Holder.cancel
  exact Asks.bind (Asks.getIssuance fun _ h => h) fun i hi => Asks.bind (words_outcome i _) fun _ _ => Asks.bind Asks.purgeE fun _ _ => Asks.pure trivial

theorem need_ok {o : Option α} {w : String} {a : α} (h : Holder.need o w = .ok a) : o = some a := by
  cases o with
  | none => cases h
  | some b => cases h; rfl

theorem words_request {P : Holder.Provider} (hP : p.SoundKeys P) (u : String) : Words p (Holder.request P u) fun _ => True := by
  unfold Holder.request
  refine words_lift fun d _ => Asks.bind Asks.drawE fun id _ => Asks.bind (Q := SoundAsk) ?_ fun r hr => words_lift fun f _ => Asks.bind (Asks.callE trivial) fun cs hcs =>
    Asks.bind (Asks.putE ⟨hr, hcs⟩) fun _ _ => Asks.pure trivial
  unfold Holder.obtainRequest
  split
  · exact Asks.lift fun r hr => hP.inUrl _ _ (need_ok hr)
  · refine Asks.bind (Asks.callE trivial) fun o _ => Asks.lift fun r hr => ?_
    cases o with
    | object _ => cases hr
    | jwt t => exact hP.signed _ _ (need_ok hr)

theorem words_present (P : Holder.Provider) (k : String) : Words p (Holder.present P k) fun _ => True := by
  unfold Holder.present
  refine Asks.bind (Asks.getPresentation fun _ h => h) fun p _ => words_lift fun _ _ => Asks.bind (Q := fun _ => True) ?_ fun sub _ => Asks.bind (Q := fun _ => True) ?_ fun vp _ =>
    Asks.bind Asks.nowE fun t _ => words_lift fun jwt _ => Asks.bind (Asks.callE trivial) fun _ _ => Asks.pure trivial
  · unfold Holder.createSubmission
    split
    · trivial
    · exact Asks.bind Asks.drawE fun _ _ => Asks.pure trivial
  · unfold Holder.createVp
    refine Asks.bind Asks.drawE fun _ _ => ?_
    simp only []
    split
    · trivial
    · exact Asks.lift'

theorem words_serve {P : Holder.Provider} (hP : p.SoundKeys P) (r : Holder.Req) : Words p (Holder.serve P r) fun _ => True := by
  cases r with
  | offer r => exact words_offer r
  | accept r => exact words_accept r
  | pin r => exact words_pin r
  | token k => exact words_token k
  | authorize r => exact words_authorize P r
  | credentials r => exact words_credentials hP r
  | deferred r => exact words_deferred hP r
  | save k => exact words_save k
  | cancel k => exact words_cancel k
  | request u => exact words_request hP u
  | authorizePresentation k =>
    unfold Holder.serve Holder.authorizePresentation
    exact Asks.bind (Asks.getPresentation fun _ h => h) fun p hp => words_lift fun _ _ => Asks.bind (Asks.putE hp) fun _ _ => Asks.pure trivial
  | present k => exact words_present P k

end

/-! ### Running over text -/

/-- One call: the same result, and the store holds what the ideal store holds, written. -/
theorem runText_same {α : Type} {p : Pages} {Good : HVal → Prop} {Fit : Holder.Call → Prop} {Right : (c : Holder.Call) → c.Reply → Prop}
    (hg : ∀ v, Good v → p.value (p.text v) = some v) {e : HEnv} {All : List Holder.Entry → List Holder.Event → Prop}
    (hall : ∀ log recent c o, All log recent → Fit c → All log (recent ++ [⟨c, o⟩]))
    (ho : ∀ log recent c, All log recent → Fit c → ∀ r, e.oracle log recent c = some r → Right c r) {q : HProg α} {Q : α → Prop} (h : Asks Good Fit Right q Q)
    {w : HWorld} (hs : ∀ k v, w.store k = some v → Good v) (hw : All w.log w.recent) :
    runText p e q (p.encode w) = ((q.run e w).1, p.encode (q.run e w).2) ∧ (∀ k v, (q.run e w).2.store k = some v → Good v) ∧
      All (q.run e w).2.log (q.run e w).2.recent := by
  induction q generalizing w with
  | ret r => exact ⟨rfl, hs, hw⟩
  | get k c ih =>
    simp only [runText, HProg.run]
    have h1 : (Prog.getRes (e.fault w.ops) ((p.encode w).store k)).bind p.value = Prog.getRes (e.fault w.ops) (w.store k) := getRes_encode hg hs _ _
    rw [show (p.encode w).ops = w.ops from rfl, h1]
    exact ih _ (h _ fun v hv => hs k v (Prog.getRes_some hv)) (w := { w with ops := w.ops + 1 }) hs hw
  | put k v c ih =>
    simp only [runText, HProg.run]
    have := ih (e.fault w.ops == .ok) (h.2 _) (w := { w with store := Prog.writeRes (e.fault w.ops) w.store k (some v), ops := w.ops + 1 })
      (Holder.good_store hs (by rintro _ ⟨⟩; exact h.1) _ _) hw
    simp only [Pages.encode, encStore_write] at this ⊢
    exact this
  | purge k c ih =>
    simp only [runText, HProg.run]
    have := ih (e.fault w.ops == .ok) (h _) (w := { w with store := Prog.writeRes (e.fault w.ops) w.store k none, ops := w.ops + 1 })
      (Holder.good_store (o := none) hs (fun _ h => nomatch h) _ _) hw
    simp only [Pages.encode, encStore_write] at this ⊢
    exact this
  | draw c ih => exact ih _ (h _) (w := { w with drawn := w.drawn + 1 }) hs hw
  | now c ih => exact ih _ (h _) hs hw
  | call c k ih =>
    exact ih _ (h.2 _ (ho w.log w.recent c hw h.1)) (w := { w with recent := w.recent ++ [⟨c, e.oracle w.log w.recent c⟩] }) hs (hall _ _ _ _ hw h.1)

theorem soundReply_of {p : Pages} {c : Holder.Call} {r : c.Reply} (h : p.SoundNews c r) : SoundReply c r := by
  cases c <;> first | exact h.1 | trivial

theorem serves {p : Pages} {P : Holder.Provider} (hP : p.SoundKeys P) {r : Holder.Req} (hr : SoundUse r) :
    Asks (fun v => SoundFlow v ∧ p.SoundKept v) (fun c => SoundCall c ∧ True) (fun c r => SoundReply c r ∧ p.SoundNews c r) (Holder.serve P r) fun _ => True ∧ True :=
  Asks.and (fits_serve P hr) (words_serve hP r)

theorem execText_same {p : Pages} (hp : p.Faithful) {e : HEnv} (ho : ∀ log recent c r, e.oracle log recent c = some r → p.SoundNews c r) {steps : List HStep}
    (hs : ∀ s ∈ steps, SoundUse s.req ∧ p.SoundKeys s.provider) {w : HWorld} (hw : ∀ k v, w.store k = some v → SoundFlow v ∧ p.SoundKept v) :
    execText p e (p.encode w) steps = p.encode (Holder.exec e w steps) := by
  induction steps generalizing w with
  | nil => rfl
  | cons s l ih =>
    have h1 := runText_same (p := p) (e := e) (All := fun _ _ => True) (fun v hv => value_text hp hv) (fun _ _ _ _ _ _ => trivial)
      (fun log recent c _ _ r hr => ⟨soundReply_of (ho log recent c r hr), ho log recent c r hr⟩) (serves (hs s (.head _)).2 (hs s (.head _)).1)
      (w := { w with now := w.now + s.wait, recent := [] }) hw trivial
    have h2 : stepText p e (p.encode w) s = ((Holder.step e w s).1, p.encode (Holder.step e w s).2) := by
      have h1 := h1.1
      simp only [Pages.encode] at h1
      simp only [stepText, Holder.step, Pages.encode, h1]
    rw [execText, Holder.exec, h2]
    exact ih (fun x hx => hs x (.tail _ hx)) h1.2.1

/-! ### Properties -/

/-- **C130**. Whatever the wallet is asked to do, by whom and with what results of its calls, and whatever goes wrong in its store: if what it is told can be put in words,
then over a store that keeps flows as JSON text it does the same calls, in the same order, with the same results, and keeps the same flows. Missing: formats for selective
disclosure, whose narrowed claims are read back as those of another format. -/
theorem C130_text_store_makes_no_difference_partial {p : Pages} (hp : p.Faithful) {e : HEnv}
    (ho : ∀ log recent c r, e.oracle log recent c = some r → p.SoundNews c r) (t0 : Int) {steps : List HStep}
    (hs : ∀ s ∈ steps, SoundUse s.req ∧ p.SoundKeys s.provider) :
    execText p e (walletText t0) steps = p.encode (Holder.exec e (Holder.start t0) steps) :=
  execText_same hp ho hs (w := Holder.start t0) fun _ _ h => nomatch h

/-- C130 fails for selective-disclosure credentials: when the holder narrows the claims of one, the flow that comes back narrows the claims of a mobile driving licence. -/
theorem C130_narrowed_sd_jwt_comes_back_as_mdoc (T : TimeText) (i : Flow) (id : String) (m : Dict Verif.Claim)
    (h : i.accepted = some [detailOf { credential := .configurationId id (some (.sdJwt m)) }])
    (hs : Flow.Sound { i with accepted := some [detailOf { credential := .configurationId id (some (.isoMdl m)) }] }) :
    readFlow T (writeFlow T i) = some { i with accepted := some [detailOf { credential := .configurationId id (some (.isoMdl m)) }] } ∧
      readFlow T (writeFlow T i) ≠ some i := by
  have e : writeFlow T i = writeFlow T { i with accepted := some [detailOf { credential := .configurationId id (some (.isoMdl m)) }] } := by
    unfold writeFlow
    rw [h]
    rfl
  rw [e, readFlow_write T hs]
  refine ⟨rfl, fun hc => ?_⟩
  have := congrArg Flow.accepted (Option.some.inj hc)
  rw [h] at this
  simp [detailOf, authorizationOf, profileOf] at this

end Verif.Wire
