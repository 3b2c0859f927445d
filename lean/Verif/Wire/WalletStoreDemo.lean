import Verif.Wire.WalletStoreProps
import Verif.Wire.NetDemo
import Verif.Wire.StoreProps
import Verif.Holder.Demo
/-!
# A wallet at work over a store of text

Shows that the hypotheses of C130 can be met: the wallet of `Holder.Demo` with its store as text.
-/
namespace Verif.Wire.Demo

/-- What is received, in full. -/
def pages : Pages where
  T := demoTime
  issuer := pageOf
  server := serverPageOf
  display := displayOf
  vc := vcOf

theorem quotaMap_back {α β : Type} {f : α → β} {g : β → α} (h : ∀ a, g (f a) = a) (q : Quota α) : quotaMap g (quotaMap f q) = q := by
  cases q with
  | one a => simp [quotaMap, h]
  | many l => simp [quotaMap, h, Function.comp_def]

theorem optQuota_back {α β : Type} {f : α → β} {g : β → α} (h : ∀ a, g (f a) = a) (o : Option (Quota α)) : (o.map (quotaMap f)).map (quotaMap g) = o := by
  cases o with
  | none => rfl
  | some q => simp only [Option.map_some, quotaMap_back h]

theorem vcSeen_of (v : Verif.Vc) : vcSeen (vcOf v) = v := by
  obtain ⟨a, b, c, d, e, f, g, h, i, j, k⟩ := v
  have hs : ∀ s, statusSeen (statusOf s) = s := fun _ => rfl
  have hp : ∀ s, proofSeen (proofOf s) = s := fun _ => rfl
  have hq : quotaMap (fun s : Subject => ({ id := s.id, claims := s.claims } : CredentialSubject)) (quotaMap (fun s => { id := s.id, claims := s.claims }) g) = g :=
    quotaMap_back (fun _ => rfl) g
  simp only [vcSeen, vcOf, optQuota_back hs, optQuota_back hp, hq]
  cases f <;> rfl

theorem faithful : pages.Faithful := ⟨issuerSeen_of, serverSeen_of, displaySeen_of, vcSeen_of⟩

theorem vc_worded : pages.Worded Holder.Demo.vc := by
  constructor
  · refine ⟨?_, nofun, ⟨by simp [Dict.Nodup, Dict.keys], by simp [Dict.keys]⟩, nofun, nofun, nofun, nofun, nofun, nofun⟩
    intro c hc
    rw [List.mem_singleton.1 (show c ∈ [baseContext] from hc)]
    exact fun s h => nomatch (show Kind.string _ = Kind.object (Json.str s) from h)
  · refine ⟨?_, nofun, fun p (h : p ∈ ([] : Dict Json)) => (List.not_mem_nil h).elim, nofun⟩
    intro j hj
    exact nomatch (show Kind.object j = Kind.string _ from List.mem_singleton.1 (show Kind.object j ∈ [baseContext] from hj))

theorem metadata_plain : PlainIssuer Holder.Demo.metadata := by
  intro p hp
  simp only [Holder.Demo.metadata, List.mem_cons, List.not_mem_nil, or_false] at hp
  rcases hp with rfl | rfl
  · refine ⟨?_, nofun⟩
    simp [Holder.Demo.employee, formatOf, definitionOf, claimsOf, claimOf, Format.Sound, CredentialDefinition.Sound, SoundClaims, SoundDict, Claim.Sound]
  · exact ⟨trivial, nofun⟩

theorem metadata_sound : (pageOf Holder.Demo.metadata).Sound := by
  refine ⟨by simp [pageOf, Holder.Demo.metadata, Dict.Nodup, Dict.keys], ?_, fun _ h => nomatch h⟩
  intro p hp
  rw [pageOf] at hp
  obtain ⟨q, hq, rfl⟩ := List.mem_map.1 hp
  refine ⟨(metadata_plain q hq).1, fun m hm => ?_⟩
  have : q.2.proofTypes = none := by
    simp only [Holder.Demo.metadata, List.mem_cons, List.not_mem_nil, or_false] at hq
    rcases hq with rfl | rfl <;> rfl
  simp [configOf, this] at hm

theorem token_sound (ids : List String) : (tokenResponseOf {
      accessToken := "at-1"
      expiresIn := 900
      cNonce := some "n1"
      cNonceExpiresIn := none
      authorizationDetails := some [{ detail := { credential := .configurationId "Employee" none }, identifiers := ids }] }).Sound := by
  refine ⟨fun n (h : some (900 : Int) = some n) => ?_, (fun n (h : none = some n) => nomatch h), ?_⟩
  · cases h
    decide
  · intro l hl d hd
    cases hl
    rw [List.mem_singleton.1 hd]
    trivial

theorem credential_sound {recent : List Holder.Event} {q : Issuer.CredentialRequest} {r : Holder.CredentialResponse} (h : Holder.Demo.credentialReply recent q = some r) :
    SoundI64 r.cNonceExpiresIn := by
  unfold Holder.Demo.credentialReply at h
  split at h
  · cases h
  · split at h <;> cases h <;> exact fun n (h : none = some n) => nomatch h

theorem held_worded : ∀ c ∈ [Holder.Demo.held], pages.Worded c.vc := by
  intro c hc
  rw [List.mem_singleton.1 hc]
  exact vc_worded

theorem news_sound (log : List Holder.Entry) (recent : List Holder.Event) (c : Holder.Call) (r : c.Reply) (h : (Holder.Demo.env).oracle log recent c = some r) : pages.SoundNews c r := by
  cases c with
  | metadata _ => cases h; exact ⟨metadata_plain, metadata_sound⟩
  | token _ => cases h; exact token_sound _
  | credential q => exact credential_sound h
  | deferred _ => cases h; exact fun n (h : none = some n) => nomatch h
  | find _ => cases h; exact held_worded
  | _ => trivial

theorem request_sound : SoundAsk (Holder.Demo.vpRequest Holder.Demo.definition) := by
  refine ⟨?_, (fun n (h : none = some n) => nomatch h), fun n (h : none = some n) => nomatch h⟩
  intro d hd
  cases hd
  refine ⟨(fun m (h : none = some m) => nomatch h), fun i hi => ?_⟩
  rw [List.mem_singleton.1 (show i ∈ [_] from hi)]
  exact fun m (h : none = some m) => nomatch h

theorem keys_sound : pages.SoundKeys Holder.Demo.provider := by
  refine ⟨fun t c h => ?_, fun t r h => ?_, fun t r h => ?_⟩
  · have h : (if t = "vc.jwt" then some _ else none) = some c := h
    split at h <;> cases h
    exact vc_worded
  · have h : (if t = "req.jwt" then some (Holder.Demo.vpRequest Holder.Demo.definition) else none) = some r := h
    split at h <;> cases h
    exact request_sound
  · cases h
    exact request_sound

theorem use_sound : ∀ s ∈ Holder.Demo.history, SoundUse s.req ∧ pages.SoundKeys s.provider := by
  intro s hs
  simp only [Holder.Demo.history, List.mem_cons, List.not_mem_nil, or_false] at hs
  rcases hs with rfl | rfl | rfl | rfl | rfl | rfl
  · exact ⟨trivial, keys_sound⟩
  · refine ⟨?_, keys_sound⟩
    intro l hl s hs m hm
    cases hl
    rw [List.mem_singleton.1 hs] at hm
    cases hm
    simp [claimsOf, claimOf, SoundDict, Claim.Sound]
  all_goals exact ⟨trivial, keys_sound⟩

/-- C130: the wallet of `Holder.Demo` gets its credential, with every flow kept as text. -/
example : (execText pages (Holder.Demo.env) (walletText 0) Holder.Demo.history).log.map (fun en => Holder.Demo.short en.result) =
    ["offer t", "flow t", "flow t", "authorized t", "credentials t", "flow t"] := by
  rw [C130_text_store_makes_no_difference_partial faithful news_sound 0 use_sound]
  show Holder.Demo.outcomes _ _ = _
  set_option maxRecDepth 20000 in decide +kernel

/-- A flow as it is stored, with claims of an accepted configuration chosen. -/
def chosen (c : Verif.ProfileClaims) : Flow :=
  { pages.flowOf { id := "t", clientId := "wallet", issuer := Holder.Demo.metadata } with
    accepted := some [detailOf { credential := .configurationId "Employee" (some c) }] }

theorem chosen_sound : (chosen (.isoMdl [("email", .entry {})])).Sound := by
  refine ⟨metadata_sound, ?_, ⟨fun n (h : some (0 : Int) = some n) => by cases h; decide, (fun n (h : none = some n) => nomatch h), fun n (h : none = some n) => nomatch h⟩,
    List.nodup_nil, fun _ h => nomatch h⟩
  intro l hl d hd
  cases hl
  rw [List.mem_singleton.1 hd]
  simp [detailOf, authorizationOf, profileOf, AuthorizationDetail.Sound, ProfileClaims.Sound, SoundDict, Claim.Sound, claimsOf, claimOf]

/-- C130: the flow in which the e-mail address of a selective-disclosure credential was chosen does not come back. -/
example : readFlow demoTime (writeFlow demoTime (chosen (.sdJwt [("email", .entry {})]))) ≠ some (chosen (.sdJwt [("email", .entry {})])) :=
  (C130_narrowed_sd_jwt_comes_back_as_mdoc demoTime (chosen (.sdJwt [("email", .entry {})])) "Employee" [("email", .entry {})] rfl chosen_sound).2

/-- C130: the flow itself, with nothing to be disclosed selectively, does. -/
example : (parseJson (writeFlow demoTime (chosen (.isoMdl [("email", .entry {})]))).chars).bind (readFlow demoTime) = some (chosen (.isoMdl [("email", .entry {})])) :=
  (C130_issuance_comes_back_iff demoTime _ fun _ h => (List.not_mem_nil h).elim).2 chosen_sound

/-- C130: a presentation of a credential received. -/
def shown : Holder.Presentation := { id := "t", status := .requested, filter := {}, request := Holder.Demo.vpRequest Holder.Demo.definition, credentials := [Holder.Demo.held] }

example : (parseJson (writeShown demoTime (pages.shownOf shown)).chars).bind (readShown demoTime) = some (pages.shownOf shown) :=
  (C130_presentation_comes_back_iff demoTime _ (fun c hc => by rw [List.mem_singleton.1 hc]; exact vc_worded.2)).2
    ⟨request_sound, fun c hc => by rw [List.mem_singleton.1 hc]; exact vc_worded.1⟩

end Verif.Wire.Demo
