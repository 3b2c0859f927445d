import Verif.Wire.StoreText
import Verif.Wire.RequestProps
import Verif.Issuer.Demo
/-!
# C121: the issuer over a store that keeps text
-/
namespace Verif.Wire
open Issuer (State)

/-! ### Specification -/

/-- The answers to a history of requests, and the world it leaves. -/
def serve (e : Env) (w : World State) : List Issuer.Step → List (Res Issuer.Resp) × World State
  | [] => ([], w)
  | s :: rest =>
    let r := (Issuer.call s.provider s.req).run e (Issuer.World.wait w s.wait)
    let q := serve e r.2 rest
    (r.1 :: q.1, q.2)

/-- The same, with a store that keeps the JSON text of what it is given and hands back what is read of it. -/
def serveText (T : TimeText) (e : Env) (w : World (List Char)) : List Issuer.Step → List (Res Issuer.Resp) × World (List Char)
  | [] => ([], w)
  | s :: rest =>
    let r := ((Issuer.call s.provider s.req).viaText (stateText T) (textState T)).run e (Issuer.World.wait w s.wait)
    let q := serveText T e r.2 rest
    (r.1 :: q.1, q.2)

/-- An empty store of text. -/
def startText (now : Int) : World (List Char) := { store := fun _ => none, now, drawn := 0, ops := 0 }

/-- Any number of calls, none of which has started, over an empty store of text. -/
def textPool (T : TimeText) (t0 : Int) (calls : Nat → Issuer.Call) : Pool (List Char) Issuer.Resp :=
  Pool.start t0 fun i => (Issuer.call (calls i).provider (calls i).req).viaText (stateText T) (textState T)

/-- A request as an endpoint gets it from a client: what it says was read from text. -/
inductive FromWire : Issuer.Req → Prop
  | par (j : Json) (o : RequestObject) : readObject j = some o → FromWire (.par (objectSeen o))
  | authorize (lossy : List UInt8 → List Char) (s : List Char) (o : RequestObject) : fromStr lossy s = some (.object o) → FromWire (.authorize (.object (objectSeen o)))
  | authorizeJson (j : Json) (o : RequestObject) : readRequest j = some (.object o) → FromWire (.authorize (.object (objectSeen o)))
  | authorizeUri (u : String) : FromWire (.authorize (.uri u))
  | credential (j : Json) (r : Issuer.CredentialRequest) : readCredentialRequest j = some r → FromWire (.credential r)
  | createOffer (r : Issuer.CreateOfferRequest) : FromWire (.createOffer r)
  | credentialOffer (r : Issuer.CredentialOfferRequest) : FromWire (.credentialOffer r)
  | token (r : Issuer.TokenRequest) : FromWire (.token r)
  | deferred (r : Issuer.DeferredRequest) : FromWire (.deferred r)
  | notification (r : Issuer.NotificationRequest) : FromWire (.notification r)
  | register (r : Issuer.RegistrationRequest) : FromWire (.register r)
  | metadata (c : String) : FromWire (.metadata c)
  | oauthServer (c : String) : FromWire (.oauthServer c)

/-! ### Proofs -/

/-- One member read by `AuthorizationRequest`'s reader. -/
theorem member_step {α : Type} {c : Prop} [Decidable c] {r : Option α} {f : α → Option AuthorizationRequest} {g : Option AuthorizationRequest} {a : AuthorizationRequest}
    {P : Prop} (hf : ∀ x, r = some x → f x = some a → P) (hg : g = some a → P) (h : (if c then r.bind f else g) = some a) : P := by
  split at h
  · obtain ⟨x, hx, h⟩ := Option.bind_eq_some_iff.1 h
    exact hf x hx h
  · exact hg h

theorem readRequestMembers_sound {l : List (String × Json)} {obj : RequestObject} {uri : String} {o : RequestObject}
    (h : readRequestMembers l obj uri = some (.object o)) (ho : ∀ l, obj.authorizationDetails = some l → ∀ d ∈ l, d.Sound) :
    ∀ l, o.authorizationDetails = some l → ∀ d ∈ l, d.Sound := by
  induction l generalizing obj uri with
  | nil =>
    simp only [readRequestMembers] at h
    split at h
    · cases h; exact ho
    · cases h
  | cons p l ih =>
    obtain ⟨k, j⟩ := p
    rw [readRequestMembers] at h
    revert h
    iterate 7 refine member_step (fun x _ h => ih h ho) ?_
    refine member_step (fun x hx h => ih h ?_) ?_
    · intro l hl
      cases hl
      exact readVec_all (fun j d => readDetail_sound) hx
    iterate 7 refine member_step (fun x _ h => ih h ho) ?_
    exact fun h => nomatch h

theorem fromWire_sound {r : Issuer.Req} (h : FromWire r) : SoundReq r := by
  cases h with
  | par j o h => exact soundObject_seen (readObject_details h)
  | authorize lossy s o h =>
    refine soundObject_seen ?_
    unfold fromStr at h
    split at h
    · obtain ⟨j, -, h⟩ := Option.bind_eq_some_iff.1 h
      cases j with
      | obj m => exact readRequestMembers_sound h nofun
      | _ => cases h
    · obtain ⟨o', h', e⟩ := Option.map_eq_some_iff.1 h
      cases e
      obtain ⟨j, -, h⟩ := Option.bind_eq_some_iff.1 h'
      exact readObject_details h
  | authorizeJson j o h =>
    refine soundObject_seen ?_
    cases j with
    | obj m => exact readRequestMembers_sound h nofun
    | _ => cases h
  | credential j r h => exact readCredentialRequest_sound h
  | _ => trivial

theorem sound_fromWire {r : Issuer.Req} (h : SoundReq r) : FromWire r := by
  cases r with
  | par r => exact objectSeen_of r ▸ .par _ _ (readObject_write (objectOf_details h))
  | authorize r =>
    cases r with
    | object r => exact objectSeen_of r ▸ .authorizeJson (.obj (writeObject (objectOf r))) _ (read_written (objectOf r) (objectOf_details h) "")
    | uri u => exact .authorizeUri u
  | credential r => exact .credential _ _ (readCredentialRequest_write h)
  | createOffer r => exact .createOffer r
  | credentialOffer r => exact .credentialOffer r
  | token r => exact .token r
  | deferred r => exact .deferred r
  | notification r => exact .notification r
  | register r => exact .register r
  | metadata c => exact .metadata c
  | oauthServer c => exact .oauthServer c

theorem serveText_sound (T : TimeText) (e : Env) {steps : List Issuer.Step} (hr : ∀ s ∈ steps, SoundReq s.req) (w : World State)
    (hw : ∀ k v, w.store k = some v → Storable v) :
    serveText T e (w.encode (stateText T)) steps = ((serve e w steps).1, (serve e w steps).2.encode (stateText T)) := by
  induction steps generalizing w with
  | nil => rfl
  | cons s rest ih =>
    obtain ⟨h1, h2⟩ := run_viaText (fun v => textState_write T) e (Issuer.call s.provider s.req) (call_keeps s.provider (hr s (.head _)))
      (Issuer.World.wait w s.wait) hw
    have h1' : ((Issuer.call s.provider s.req).viaText (stateText T) (textState T)).run e (Issuer.World.wait (w.encode (stateText T)) s.wait) = _ := h1
    have h3 := ih (fun s hs => hr s (.tail _ hs)) _ h2
    simp only [serveText, serve, h1', h3]

theorem start_empty {t0 : Int} (k : String) (v : State) (h : (Issuer.start t0).store k = some v) : Storable v := nomatch (h : none = some v)

theorem viaText_ret {V T α : Type} {enc : V → T} {dec : T → Option V} {p : Prog V α} {r : Res α} : p.viaText enc dec = .ret r ↔ p = .ret r := by
  cases p <;> simp [Prog.viaText]

/-! ### Theorems -/

/-- C121: A state comes back from its text exactly if it can be put in words. (`issued`, a stage no endpoint stores, is not modelled as text: see `readStage`.) -/
theorem C121_state_comes_back_iff (T : TimeText) (s : State) : textState T (stateText T s) = some s ↔ Storable s := by
  refine ⟨fun h => ?_, textState_write T⟩
  obtain ⟨j, -, h⟩ := Option.bind_eq_some_iff.1 h
  exact readState_sound T h

/-- C121: What clients can ask for is all that can be put in words. -/
theorem C121_requests_off_the_wire (r : Issuer.Req) : FromWire r ↔ SoundReq r := ⟨fromWire_sound, sound_fromWire⟩

/-- C121: For every history of requests from clients, whatever faults the store has, the answers are the same and the store holds the text of the same states. -/
theorem C121_same_answers (T : TimeText) (e : Env) (t0 : Int) (steps : List Issuer.Step) (h : ∀ s ∈ steps, FromWire s.req) :
    (serveText T e (startText t0) steps).1 = (serve e (Issuer.start t0) steps).1 ∧
    ∀ k, (serveText T e (startText t0) steps).2.store k = ((serve e (Issuer.start t0) steps).2.store k).map (stateText T) := by
  have := serveText_sound T e (fun s hs => fromWire_sound (h s hs)) (Issuer.start t0) start_empty
  rw [show (Issuer.start t0).encode (stateText T) = startText t0 from rfl] at this
  rw [this]
  exact ⟨rfl, fun _ => rfl⟩

/-- C121: All that the issuer ever stores can be read back. -/
theorem C121_stored_states_readable (T : TimeText) (e : Env) (t0 : Int) (steps : List Issuer.Step) (h : ∀ s ∈ steps, FromWire s.req) (k : String) (t : List Char)
    (hk : (serveText T e (startText t0) steps).2.store k = some t) : ∃ s, textState T t = some s ∧ stateText T s = t ∧ (serve e (Issuer.start t0) steps).2.store k = some s := by
  rw [(C121_same_answers T e t0 steps h).2 k] at hk
  obtain ⟨s, hs, rfl⟩ := Option.map_eq_some_iff.1 hk
  suffices hw : ∀ (steps : List Issuer.Step) (w : World State), (∀ s ∈ steps, SoundReq s.req) → (∀ k v, w.store k = some v → Storable v) →
      ∀ k v, (serve e w steps).2.store k = some v → Storable v from
    ⟨s, textState_write T (hw steps _ (fun s hs => fromWire_sound (h s hs)) start_empty k s hs), rfl, hs⟩
  intro steps
  induction steps with
  | nil => exact fun w _ hw => hw
  | cons s rest ih =>
    intro w hr hw
    exact ih _ (fun s hs => hr s (.tail _ hs)) (run_viaText (fun v => textState_write T) e _ (call_keeps s.provider (hr s (.head _))) (Issuer.World.wait w s.wait) hw).2

/-- C121: However calls overlap, with faults and crashes anywhere, each is answered the same and the store holds the text of the same states. -/
theorem C121_same_under_any_schedule (T : TimeText) (rng : Nat → Nat → String) (t0 : Int) (calls : Nat → Issuer.Call) (h : ∀ i, FromWire (calls i).req)
    (s : List Event) :
    (∀ i r, ((textPool T t0 calls).exec rng s).Answered i r ↔ ((Issuer.pool t0 calls).exec rng s).Answered i r) ∧
    ∀ k, ((textPool T t0 calls).exec rng s).store k = (((Issuer.pool t0 calls).exec rng s).store k).map (stateText T) := by
  have := exec_viaText (fun v => textState_write T) rng (Issuer.pool t0 calls) (fun i => call_keeps _ (fromWire_sound (h i))) (start_empty (t0 := t0)) s
  rw [show (Issuer.pool t0 calls).encode (stateText T) (textState T) = textPool T t0 calls from rfl] at this
  rw [this]
  exact ⟨fun i r => viaText_ret, fun _ => rfl⟩

/-- C121 needs requests from clients: claims a program asks for by selective disclosure are kept as those of a mobile driving licence. -/
theorem C121_sd_jwt_kept_as_mdoc (T : TimeText) (sub : Option String) (t : Int) (a : Issuer.Authorization) (id cfg : String) (ids : List String)
    (m : List (String × Verif.Claim)) (hm : SoundDict (claimsOf m))
    (ha : a.items = [{ item := .detail { credential := .configurationId id (some (.sdJwt m)) }, configId := cfg, identifiers := ids }]) :
    textState T (stateText T { subjectId := sub, stage := .authorized a, expiresAt := t }) =
      some { subjectId := sub, expiresAt := t
             stage := .authorized { a with items := [{ item := .detail { credential := .configurationId id (some (.isoMdl m)) }, configId := cfg, identifiers := ids }] } } := by
  have e : stateText T { subjectId := sub, stage := .authorized a, expiresAt := t } = stateText T { subjectId := sub, expiresAt := t, stage := .authorized { a with items := [{ item := .detail { credential := .configurationId id (some (.isoMdl m)) }, configId := cfg, identifiers := ids }] } } := by
    simp only [stateText, writeState, writeStage, writeAuthorization, ha]
    rfl
  rw [e]
  refine textState_write T ?_
  intro i hi d hd
  simp only [List.mem_singleton] at hi
  subst hi
  cases hd
  exact hm

/-! ### Instances -/

/-- Times as numbers. -/
def demoTime : TimeText where
  text t := t.repr
  read s := s.toInt?
  read_text t := by simp

/-- An offer, a token, an authorization request, and a credential. -/
def demoSteps : List Issuer.Step :=
  [{ provider := Issuer.Demo.provider, req := .createOffer Issuer.Demo.offerReq },
   { provider := Issuer.Demo.provider, req := .token (Issuer.Demo.tokenReq (Issuer.Demo.rng 0)) },
   { provider := Issuer.Demo.provider, req := .authorize (.object Issuer.Demo.authReq) },
   { provider := Issuer.Demo.provider, req := .credential (Issuer.Demo.credReq (Issuer.Demo.rng 2) (Issuer.Demo.rng 3)) }]

theorem demo_fromWire : ∀ s ∈ demoSteps, FromWire s.req := by
  intro s hs
  simp only [demoSteps, List.mem_cons, List.not_mem_nil, or_false] at hs
  rcases hs with rfl | rfl | rfl | rfl
  · exact .createOffer _
  · exact .token _
  · refine (C121_requests_off_the_wire _).2 ?_
    intro l hl d hd
    cases hl
    simp only [List.mem_singleton] at hd
    subst hd
    trivial
  · exact (C121_requests_off_the_wire _).2 trivial

example : (serve Issuer.Demo.env (Issuer.start 0) demoSteps).1.map Issuer.Demo.isOk = [true, true, true, true] := by decide +kernel

example : (serveText demoTime Issuer.Demo.env (startText 0) demoSteps).1.map Issuer.Demo.isOk = [true, true, true, true] := by
  rw [(C121_same_answers demoTime Issuer.Demo.env 0 demoSteps demo_fromWire).1]
  decide +kernel

example : ∃ k t, (serveText demoTime Issuer.Demo.env (startText 0) demoSteps).2.store k = some t := by
  have h : ((serve Issuer.Demo.env (Issuer.start 0) demoSteps).2.store (Issuer.Demo.rng 2)).isSome = true := by decide +kernel
  obtain ⟨s, hs⟩ := Option.isSome_iff_exists.1 h
  exact ⟨Issuer.Demo.rng 2, stateText demoTime s, by rw [(C121_same_answers demoTime Issuer.Demo.env 0 demoSteps demo_fromWire).2, hs]; rfl⟩

example : ∀ i, FromWire ((fun i => if i = 0 then ⟨Issuer.Demo.provider, .createOffer Issuer.Demo.offerReq⟩ else ⟨Issuer.Demo.provider, .metadata ""⟩ : Nat → Issuer.Call) i).req := by
  intro i
  dsimp only
  split
  · exact .createOffer _
  · exact .metadata _

example : SoundDict (claimsOf [("given_name", .entry {})]) := by simp [SoundDict, claimsOf, claimOf, Claim.Sound]

end Verif.Wire
