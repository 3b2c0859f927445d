import Verif.App.Lemmas
import Verif.Holder.Asks
/-!
# What the example wallet asks of issuers, whoever they are
-/
namespace Verif.App
open Holder (Credential HEnv HWorld Req Resp Event Call Entry Issuance HVal HProg HRes Asks)

/-! ### Endpoints -/

section
variable {α β : Type} {Good : HVal → Prop} {Fit : Call → Prop} {Right : (c : Call) → c.Reply → Prop}

theorem asks_lift {r : HRes α} {f : α → HProg β} {Q : β → Prop} (hf : ∀ a, r = .ok a → Asks Good Fit Right (f a) Q) :
    Asks Good Fit Right (HProg.lift r >>= f) Q := Asks.bind (Asks.lift fun _ h => h) hf

theorem asks_storable (hl : ∀ u, Fit (.logo u)) (P : Holder.Provider) (c : CredentialConfiguration) (k : Kind Vc) :
    Asks Good Fit Right (Holder.storable P c k) fun _ => True := by
  unfold Holder.storable
  refine asks_lift fun p _ => ?_
  split
  · trivial
  · refine asks_lift fun _ _ => ?_
    split
    · trivial
    · refine Asks.bind (Q := fun _ => True) ?_ fun id _ => asks_lift fun uri _ => Asks.bind (Q := fun _ => True) ?_ fun _ _ => Asks.pure trivial
      · unfold Holder.storableId
        split
        · exact Asks.pure trivial
        · exact Asks.bind Asks.drawE fun _ _ => Asks.pure trivial
      · unfold Holder.fetchLogo
        split
        · exact Asks.pure trivial
        · exact ⟨hl _, fun _ _ => trivial⟩

theorem asks_process (hl : ∀ u, Fit (.logo u)) (P : Holder.Provider) (c : CredentialConfiguration) (r : Holder.CredentialResponse) :
    Asks Good Fit Right (Holder.process P c r) fun _ => True := by
  have hs : ∀ l, Asks Good Fit Right (Holder.storables P c l) fun _ => True := by
    intro l
    induction l with
    | nil => exact Asks.pure trivial
    | cons k l ih => exact Asks.bind (asks_storable hl P c k) fun _ _ => Asks.bind ih fun _ _ => Asks.pure trivial
  unfold Holder.process
  split
  · exact Asks.bind (asks_storable hl P c _) fun _ _ => Asks.pure trivial
  · exact Asks.bind (hs _) fun _ _ => Asks.pure trivial
  · exact Asks.pure trivial

theorem asks_outcome (hn : ∀ n, Fit (.notification n)) (i : Issuance) (ev : Holder.NotificationEvent) :
    Asks Good Fit Right (Holder.notifyOutcome i ev) fun _ => True := by
  unfold Holder.notifyOutcome
  split
  · exact Asks.pure trivial
  · exact Asks.bind (Asks.callE (hn _)) fun _ _ => Asks.pure trivial

theorem asks_end (i : Issuance) (k : String) : Asks Good Fit Right (Holder.endFlow i k) fun _ => True := by
  unfold Holder.endFlow
  split
  · exact Asks.purgeE
  · exact Asks.pure trivial

/-- The endpoints for presentations, when nothing is asked of presentations. -/
theorem asks_presenting (hg : ∀ p, Good (.presentation p)) (hr : ∀ u, Fit (.requestObject u)) (hf : ∀ k, Fit (.find k)) (hp : ∀ u r, Fit (.present u r))
    (P : Holder.Provider) :
    (∀ u, Asks Good Fit Right (Holder.request P u) fun _ => True) ∧ (∀ k, Asks Good Fit Right (Holder.authorizePresentation k) fun _ => True) ∧
    (∀ k, Asks Good Fit Right (Holder.present P k) fun _ => True) := by
  refine ⟨fun u => ?_, fun k => ?_, fun k => ?_⟩
  · unfold Holder.request
    refine asks_lift fun _ _ => Asks.bind Asks.drawE fun _ _ => Asks.bind (Q := fun _ => True) ?_ fun _ _ => asks_lift fun _ _ => Asks.bind (Asks.callE (hf _)) fun _ _ =>
      Asks.bind (Asks.putE (hg _)) fun _ _ => Asks.pure trivial
    unfold Holder.obtainRequest
    split
    · exact Asks.lift'
    · exact Asks.bind (Asks.callE (hr _)) fun _ _ => Asks.lift'
  · exact Asks.bind (Asks.getPresentation fun _ _ => trivial) fun _ (_ : True) => asks_lift fun _ _ => Asks.bind (Asks.putE (hg _)) fun _ _ => Asks.pure trivial
  · unfold Holder.present
    refine Asks.bind (Asks.getPresentation fun _ _ => trivial) fun p (_ : True) => asks_lift fun _ _ => Asks.bind (Q := fun _ => True) ?_ fun _ _ =>
      Asks.bind (Q := fun _ => True) ?_ fun _ _ => Asks.bind Asks.nowE fun _ _ => asks_lift fun _ _ => Asks.bind (Asks.callE (hp _ _)) fun _ _ => Asks.pure trivial
    · unfold Holder.createSubmission
      split
      · trivial
      · exact Asks.bind Asks.drawE fun _ _ => Asks.pure trivial
    · unfold Holder.createVp
      refine Asks.bind Asks.drawE fun _ _ => ?_
      simp only []
      split
      · trivial
      · exact Asks.lift'

end

/-- A flow of this wallet with an issuer that calls itself something. -/
def Home (U : String → Prop) : HVal → Prop
  | .issuance i => i.clientId = "wallet" ∧ U i.issuer.credentialIssuer
  | .presentation _ => True

/-- Requests of this wallet that go to such an issuer. -/
def Homing (U : String → Prop) : Call → Prop
  | .token q => q.clientId = some "wallet" ∧ U q.credentialIssuer
  | .credential q => U q.credentialIssuer
  | _ => True

/-- Metadata of such issuers. -/
def Called (U : String → Prop) : (c : Call) → c.Reply → Prop
  | .metadata _, md => U (Verif.Issuer.credentialIssuer md)
  | _, _ => True

theorem homing_byIdentifiers {U : String → Prop} {P : Holder.Provider} {jwt cfg : String} {c : CredentialConfiguration} {wanted : Option (List String)}
    {ids : List String} {i : Issuance} (hi : Home U (.issuance i)) :
    Asks (Home U) (Homing U) (Called U) (Holder.byIdentifiers P jwt cfg c wanted ids i) fun j => Home U (.issuance j) := by
  induction ids generalizing i with
  | nil => exact Asks.pure hi
  | cons id ids ih =>
    rw [Holder.byIdentifiers]
    split
    · exact Asks.bind (Asks.callE hi.2) fun r _ => Asks.bind (asks_process (fun _ => trivial) P c r) fun out _ => ih (i := (i.record cfg out).renew r) hi
    · exact ih hi

theorem homing_byDetails {U : String → Prop} {P : Holder.Provider} {jwt : String} {wanted : Option (List String)} {l : List Issuer.AuthorizedDetail}
    {i : Issuance} (hi : Home U (.issuance i)) :
    Asks (Home U) (Homing U) (Called U) (Holder.byDetails P jwt wanted l i) fun j => Home U (.issuance j) := by
  induction l generalizing i with
  | nil => exact Asks.pure hi
  | cons d l ih =>
    rw [Holder.byDetails]
    exact asks_lift fun cfg _ => asks_lift fun c _ => Asks.bind (homing_byIdentifiers hi) fun j hj => ih hj

theorem homing_saveAll {U : String → Prop} (i : Issuance) (l : List Credential) : Asks (Home U) (Homing U) (Called U) (Holder.saveAll i l) fun _ => True := by
  induction l with
  | nil => exact Asks.pure trivial
  | cons c l ih =>
    rw [Holder.saveAll]
    refine Asks.bind (Asks.callO trivial) fun o _ => ?_
    cases o with
    | some u => exact ih
    | none =>
      refine Asks.bind (Q := fun _ => True) ?_ fun _ _ => trivial
      unfold Holder.notifyFailure
      split
      · exact Asks.pure trivial
      · exact Asks.bind (Asks.callO trivial) fun _ _ => Asks.pure trivial

/-- Who the requests come from and where they go. -/
theorem homing {U : String → Prop} (P : Holder.Provider) {r : Req} (hr : Used r) : Asks (Home U) (Homing U) (Called U) (Holder.serve P r) fun _ => True := by
  have hp := asks_presenting (Good := Home U) (Fit := Homing U) (Right := Called U) (fun _ => trivial) (fun _ => trivial) (fun _ => trivial) (fun _ _ => trivial) P
  cases r with
  | offer q =>
    have hr : q.clientId = "wallet" := hr
    refine asks_lift fun _ _ => Asks.bind (Q := fun i => i.clientId = "wallet") (Asks.bind Asks.drawE fun _ _ => Asks.pure hr) fun i hi => ?_
    refine Asks.bind (Q := fun j => Home U (.issuance j)) ?_ fun j hj => Asks.bind (Asks.putE hj) fun _ _ => asks_lift fun _ _ => Asks.pure trivial
    exact Asks.bind (Asks.callE trivial) fun md hmd => Asks.bind (Asks.callE trivial) fun _ _ => Asks.pure ⟨hi, hmd⟩
  | accept q =>
    exact Asks.bind (Asks.getIssuance fun _ h => h) fun i hi => asks_lift fun _ _ => asks_lift fun _ _ => asks_lift fun _ _ => Asks.bind (Asks.putE hi) fun _ _ =>
      Asks.pure trivial
  | pin q =>
    exact Asks.bind (Asks.getIssuance fun _ h => h) fun i hi => asks_lift fun _ _ => Asks.bind (Asks.putE hi) fun _ _ => Asks.pure trivial
  | token k =>
    refine Asks.bind (Asks.getIssuance fun _ h => h) fun i hi => asks_lift fun _ _ => asks_lift fun q hq => Asks.bind (Asks.callE ?_) fun t _ => asks_lift fun _ _ =>
      Asks.bind (Asks.putE hi) fun _ _ => Asks.pure trivial
    obtain ⟨g, _, hq⟩ := Holder.okBind hq
    obtain ⟨p, _, hq⟩ := Holder.okBind hq
    cases hq
    exact ⟨by rw [hi.1], hi.2⟩
  | authorize q => cases hr
  | credentials q =>
    refine Asks.bind (Asks.getIssuance fun _ h => h) fun i hi => asks_lift fun _ _ => Asks.bind Asks.nowE fun t _ => asks_lift fun jwt _ => ?_
    refine Asks.bind (Q := fun j => Home U (.issuance j)) ?_ fun j hj => Asks.bind (Asks.putE hj) fun _ _ => Asks.pure trivial
    unfold Holder.fetch
    split
    · unfold Holder.byFormat
      exact asks_lift fun _ _ => asks_lift fun _ _ => asks_lift fun x _ => Asks.bind (Asks.callE hi.2) fun r _ =>
        Asks.bind (asks_process (fun _ => trivial) P _ r) fun out _ => Asks.pure hi
    · unfold Holder.byIdentifier
      exact asks_lift fun l _ => homing_byDetails hi
  | deferred q => cases hr
  | save k =>
    exact Asks.bind (Asks.getIssuance fun _ h => h) fun i hi => Asks.bind (homing_saveAll i _) fun _ _ => Asks.bind (asks_outcome (fun _ => trivial) i _) fun _ _ =>
      Asks.bind (asks_end i k) fun _ _ => Asks.pure trivial
  | cancel k => cases hr
  | request u => exact hp.1 u
  | authorizePresentation k => exact hp.2.1 k
  | present k => exact hp.2.2 k

/-- A flow that has brought nothing. -/
def Bare : HVal → Prop
  | .issuance i => i.status ≠ .tokenReceived ∧ i.credentials = []
  | .presentation _ => True

/-- Calls that bring nothing. -/
def Idle : Call → Prop
  | .credential _ => False
  | .save _ => False
  | _ => True

/-- There are no tokens. -/
def NoToken : (c : Call) → c.Reply → Prop
  | .token _, _ => False
  | _, _ => True

/-- Without tokens nothing comes of anything. -/
theorem idle (P : Holder.Provider) {r : Req} (hr : Used r) : Asks Bare Idle NoToken (Holder.serve P r) fun _ => True := by
  have hp := asks_presenting (Good := Bare) (Fit := Idle) (Right := NoToken) (fun _ => trivial) (fun _ => trivial) (fun _ => trivial) (fun _ _ => trivial) P
  cases r with
  | offer q =>
    refine asks_lift fun _ _ => Asks.bind (Q := fun i => i.credentials = []) (Asks.bind Asks.drawE fun _ _ => Asks.pure rfl) fun i hi => ?_
    refine Asks.bind (Q := fun j => j.credentials = []) ?_ fun j hj => Asks.bind (Asks.putE ⟨(fun h => nomatch h), hj⟩) fun _ _ => asks_lift fun _ _ => Asks.pure trivial
    exact Asks.bind (Asks.callE trivial) fun md hmd => Asks.bind (Asks.callE trivial) fun _ _ => Asks.pure hi
  | accept q =>
    refine Asks.bind (Asks.getIssuance fun _ h => h) fun i hi => asks_lift fun _ _ => asks_lift fun _ _ => asks_lift fun _ _ =>
      Asks.bind (Asks.putE ⟨?_, hi.2⟩) fun _ _ => Asks.pure trivial
    show (if Holder.needsPin i.offer then _ else _) ≠ _
    split <;> exact fun h => nomatch h
  | pin q =>
    exact Asks.bind (Asks.getIssuance fun _ h => h) fun i hi => asks_lift fun _ _ => Asks.bind (Asks.putE ⟨(fun h => nomatch h), hi.2⟩) fun _ _ => Asks.pure trivial
  | token k =>
    exact Asks.bind (Asks.getIssuance fun _ h => h) fun i hi => asks_lift fun _ _ => asks_lift fun q hq => Asks.bind (Asks.callE trivial) fun t ht => ht.elim
  | authorize q => cases hr
  | credentials q =>
    refine Asks.bind (Asks.getIssuance fun _ h => h) fun i hi => asks_lift fun _ h => ?_
    have := Holder.check_ok h.symm
    exact absurd (by simpa using this) hi.1
  | deferred q => cases hr
  | save k =>
    refine Asks.bind (Asks.getIssuance fun _ h => h) fun i hi => Asks.bind (Q := fun _ => True) ?_ fun _ _ => Asks.bind (asks_outcome (fun _ => trivial) i _) fun _ _ =>
      Asks.bind (asks_end i k) fun _ _ => Asks.pure trivial
    rw [hi.2]
    exact Asks.pure trivial
  | cancel k => cases hr
  | request u => exact hp.1 u
  | authorizePresentation k => exact hp.2.1 k
  | present k => exact hp.2.2 k

/-! ### The application -/

/-- All flows are good and all calls so far were fit. -/
structure Stable (Good : HVal → Prop) (Fit : Call → Prop) (s : App) : Prop where
  good : ∀ k v, s.world.store k = some v → Good v
  fit : ∀ en ∈ s.world.log, ∀ ev ∈ en.events, Fit ev.call

section
variable {Good : HVal → Prop} {Fit : Call → Prop} {Right : (c : Call) → c.Reply → Prop} {a : Around}

/-- What is asked of the endpoints and of those who answer. -/
structure Rules (Good : HVal → Prop) (Fit : Call → Prop) (Right : (c : Call) → c.Reply → Prop) (a : Around) : Prop where
  serves : ∀ r, Used r → ∃ Q, Asks Good Fit Right (Holder.serve a.provider r) Q
  answers : ∀ f log recent c r, Fit c → (connected a f).oracle log recent c = some r → Right c r

theorem made_fit (h : Rules Good Fit Right a) {s : App} (hs : Stable Good Fit s) (t : Nat) {r : Req} (hr : Used r) :
    (∀ k v, (lib a s t r).2.world.store k = some v → Good v) ∧ ∀ ev ∈ made a s t r, Fit ev.call := by
  have := Holder.run_same (Good := Good) (Fit := Fit) (Right := Right) (e := connected a s.files) (e' := connected a s.files) rfl rfl (All := fun _ recent => ∀ ev ∈ recent, Fit ev.call)
    (fun log recent c o hall hc ev hev => by
      rcases List.mem_append.1 hev with hev | hev
      · exact hall ev hev
      · cases List.mem_singleton.1 hev; exact hc)
    (fun log recent c _ hc => ⟨rfl, fun r hr => h.answers _ _ _ _ _ hc hr⟩) (h.serves r hr).choose_spec
    (w := { s.world with now := s.world.now + t, recent := [] }) hs.good (fun _ h => nomatch h)
  exact ⟨this.2.1, this.2.2⟩

theorem stable_lib (h : Rules Good Fit Right a) {s : App} (hs : Stable Good Fit s) (t : Nat) {r : Req} (hr : Used r) : Stable Good Fit (lib a s t r).2 := by
  obtain ⟨h1, h2⟩ := made_fit h hs t hr
  refine ⟨h1, ?_⟩
  obtain ⟨x, hx, _⟩ := lib_log a s t r
  rw [hx]
  intro en hen
  rcases List.mem_append.1 hen with hen | hen
  · exact hs.fit en hen
  · rw [List.mem_singleton.1 hen]; exact h2

theorem stable_does (h : Rules Good Fit Right a) {s s' : App} (hs : Stable Good Fit s) (hd : Does a s s') : Stable Good Fit s' := by
  induction hd with
  | refl => exact hs
  | lib _ t r hr ih => exact stable_lib h ih t hr
  | edit _ hw _ ih => exact ⟨by rw [hw]; exact ih.good, by rw [hw]; exact ih.fit⟩

theorem stable_serve (h : Rules Good Fit Right a) {s : App} (hs : Stable Good Fit s) (t : Nat) (c : Cmd) : Stable Good Fit (serve a s t c).2 := by
  induction c with
  | delete id =>
    show Stable Good Fit (delete a s id).2
    exact ⟨by rw [delete_world]; exact hs.good, by rw [delete_world]; exact hs.fit⟩
  | restart => exact ⟨(fun _ _ h => nomatch h), hs.fit⟩
  | autosave => exact ⟨hs.good, hs.fit⟩
  | crash n c ih => exact ⟨(fun _ _ h => nomatch h), ih.fit⟩
  | _ => exact stable_does h hs (serve_does a s t trivial)

theorem stable_after (h : Rules Good Fit Right a) {s : App} (hs : Stable Good Fit s) (l : List (Nat × Cmd)) : Stable Good Fit (after a s l) := by
  induction l generalizing s with
  | nil => exact hs
  | cons x l ih => exact ih (stable_serve h hs x.1 x.2)

theorem stable_opened (now : Int) (file : Dict Slot) : Stable Good Fit (opened now file) := ⟨(fun _ _ h => nomatch h), (fun _ h => nomatch h)⟩

/-! ### The files, if nothing is saved -/

/-- Nothing is in the store, in its file or was ever in its file that was not there at first. -/
structure Only (file : Dict Slot) (f : Files) : Prop where
  store : ∀ x ∈ f.store, x ∈ file
  disk : ∀ x ∈ f.disk, x ∈ file
  past : ∀ d ∈ f.past, ∀ x ∈ d, x ∈ file

theorem only_write {file : Dict Slot} {f : Files} (h : Only file f) (a : Around) : Only file (f.write a) := by
  refine ⟨h.store, ?_, ?_⟩
  · show ∀ x ∈ (if a.disk f.past.length then f.store else f.disk), _
    split
    · exact h.store
    · exact h.disk
  · intro d hd
    rcases List.mem_append.1 hd with hd | hd
    · exact h.past d hd
    · rw [List.mem_singleton.1 hd]; exact h.disk

theorem only_delete {file : Dict Slot} {s : App} (h : Only file s.files) (a : Around) (id : String) : Only file (delete a s id).2.files := by
  have hr : Only file (s.files.remove a id).2 := by
    unfold Files.remove
    split
    · exact only_write (f := { s.files with store := erase s.files.store id }) ⟨fun x hx => h.store x (List.mem_filter.1 hx).1, h.disk, h.past⟩ a
    · exact h
  simp only [delete]
  split
  · rw [finish_state]; exact hr
  · exact hr

theorem only_does (h : Rules Good Fit Right a) (hn : ∀ c, ¬ Fit (.save c)) {s s' : App} (hs : Stable Good Fit s) (hd : Does a s s') : s'.files = s.files := by
  induction hd with
  | refl => rfl
  | @lib s' hd t r hr ih =>
    rw [← ih]
    show s'.files.after a (made a s' t r) = _
    rw [after_saves]
    have : savedIn (made a s' t r) = [] := by
      rw [List.eq_nil_iff_forall_not_mem]
      intro c hc
      obtain ⟨ev, hev, he⟩ := mem_savedIn.1 hc
      exact hn c (he ▸ (made_fit h (stable_does h hs hd) t hr).2 ev hev)
    rw [this]
    rfl
  | edit _ _ hf ih => rw [hf, ih]

theorem only_plain (h : Rules Good Fit Right a) (hn : ∀ c, ¬ Fit (.save c)) {file : Dict Slot} {s : App} (hs : Stable Good Fit s) (ho : Only file s.files) (t : Nat)
    {c : Cmd} (hc : Plain c) : Only file (serve a s t c).2.files := by
  rw [only_does h hn hs (serve_does a s t hc)]; exact ho

theorem only_serve (h : Rules Good Fit Right a) (hn : ∀ c, ¬ Fit (.save c)) {file : Dict Slot} {s : App} (hs : Stable Good Fit s) (ho : Only file s.files) (t : Nat)
    (c : Cmd) : Only file (serve a s t c).2.files := by
  induction c with
  | delete id => exact only_delete ho a id
  | restart => exact ⟨ho.disk, ho.disk, ho.past⟩
  | autosave => exact only_write ho a
  | crash n c ih =>
    have hd : ∀ k : Nat, ∀ x ∈ (((serve a s t c).2.files.past[k]?).getD (serve a s t c).2.files.disk), x ∈ file := by
      intro k
      cases hk : (serve a s t c).2.files.past[k]? with
      | none => exact ih.disk
      | some d => exact ih.past d (List.mem_of_getElem? hk)
    exact ⟨hd _, hd _, fun d hd' => ih.past d (List.mem_of_mem_take hd')⟩
  | _ => exact only_plain h hn hs ho t trivial

theorem only_after (h : Rules Good Fit Right a) (hn : ∀ c, ¬ Fit (.save c)) {file : Dict Slot} {s : App} (hs : Stable Good Fit s) (ho : Only file s.files)
    (l : List (Nat × Cmd)) : Only file (after a s l).files := by
  induction l generalizing s with
  | nil => exact ho
  | cons x l ih => exact ih (stable_serve h hs x.1 x.2) (only_serve h hn hs ho x.1 x.2)

end

end Verif.App
