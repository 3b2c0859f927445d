import Verif.Wire.Net
import Verif.Wire.MessageProps
import Verif.Wire.IssuerMetaProps
/-!
# Calls and replies over text
-/
namespace Verif.Wire
open Interop (Net)

/-! ### Specification -/

/-- A configuration whose claims can be put in words, also when a wallet asks for some of them: those of a selective-disclosure credential cannot
(`C117_sd_jwt_claims_read_as_mdoc`). -/
def PlainFormat (f : Verif.Format) : Prop := (formatOf f).Sound ∧ ∀ t c, f ≠ .vcSdJwt t c

/-- Metadata with such configurations only. -/
def PlainIssuer (i : Verif.Issuer) : Prop := ∀ p ∈ i.configs, PlainFormat p.2.format

/-- A call whose claims can be put in words. -/
def SoundCall : Holder.Call → Prop
  | .authorization r => SoundObject r
  | .token r => ∀ l, r.authorizationDetails = some l → ∀ d ∈ l, (detailOf d).Sound
  | .credential r => SoundIssuance r.credential
  | _ => True

/-- A response of the issuer whose claims can be put in words, with times that are `i64`; metadata is published in full. -/
def SoundResp (n : TextNet) : Issuer.Resp → Prop
  | .metadata i => issuerSeen (n.page i) = i ∧ (n.page i).Sound
  | .oauthServer s => serverSeen (n.serverPage s) = s
  | .token r => (tokenResponseOf r).Sound
  | .credential r => SoundI64 r.cNonceExpiresIn
  | .deferred r => SoundI64 r.cNonceExpiresIn
  | _ => True

/-! ### Requests -/

theorem sent_eq {β : Type} {j : Json} (h : j.WF) (read : Json → Option β) : sent j read = read j := by rw [sent, parseJson_chars _ h, Option.bind_some]

theorem sent_metadata (i : String) : sent (writeMetadataRequest i) readMetadataRequest = some i := by
  rw [sent_eq]
  · rw [readMetadataRequest, writeMetadataRequest, structFields_members (names := ["credential_issuer", "languages"]) rfl (by decide)]
    simp only [List.map_cons, List.map_nil, nonEmpty_read, Option.bind_eq_bind, Option.bind_some]
    rfl
  · refine wf_members ?_
    simp only [List.forall_mem_cons]
    exact ⟨wf_nonEmpty _, wf_optStr none, fun _ h => nomatch h⟩

theorem sent_server (i : String) : sent (writeServerRequest i) readServerRequest = some i := by
  rw [sent_eq]
  · rw [readServerRequest, writeServerRequest, structFields_members (names := ["credential_issuer", "issuer"]) rfl (by decide)]
    simp only [List.map_cons, List.map_nil, nonEmpty_read, Option.bind_eq_bind, Option.bind_some]
    rfl
  · refine wf_members ?_
    simp only [List.forall_mem_cons]
    exact ⟨wf_nonEmpty _, wf_optStr none, fun _ h => nomatch h⟩

theorem optDetailsSeen_of (o : Option (List Verif.AuthorizationDetail)) : (o.map (·.map detailOf)).map (·.map detailSeen) = o := by
  cases o with
  | none => rfl
  | some l => simp only [Option.map_some, List.map_map, Function.comp_def, detailSeen_of, List.map_id']

theorem tokenRequestSeen_of (r : Issuer.TokenRequest) : tokenRequestSeen (tokenRequestOf r) = r := by
  obtain ⟨a, b, c, d⟩ := r
  simp only [tokenRequestSeen, tokenRequestOf, optDetailsSeen_of]

theorem mapped_sound {o : Option (List Verif.AuthorizationDetail)} (h : ∀ l, o = some l → ∀ d ∈ l, (detailOf d).Sound) :
    ∀ l, o.map (·.map detailOf) = some l → ∀ d ∈ l, d.Sound := by
  intro l hl d hd
  obtain ⟨l', e, rfl⟩ := Option.map_eq_some_iff.1 hl
  obtain ⟨d', hd', rfl⟩ := List.mem_map.1 hd
  exact h l' e d' hd'

theorem carried_eq {c : Holder.Call} (h : SoundCall c) : carried c = Interop.request c := by
  cases c with
  | metadata i => rw [carried, sent_metadata]; rfl
  | oauthServer i => rw [carried, sent_server]; rfl
  | authorization r =>
    have e : readRequest (.obj (writeRequest (.object (objectOf r)))) = some (.object (objectOf r)) := read_written (objectOf r) (objectOf_details h) ""
    rw [carried, sent_eq (j := .obj (writeRequest (.object (objectOf r)))) (wf_request (objectOf r)), e, Option.map_some, authorizationRequestSeen, objectSeen_of]
    rfl
  | token r =>
    have e : overText writeTokenRequest readTokenRequest (tokenRequestOf r) = some (tokenRequestOf r) := (C125_token_request_iff _).2 (mapped_sound h)
    have e' : sent (writeTokenRequest (tokenRequestOf r)) readTokenRequest = some (tokenRequestOf r) := e
    rw [carried, e', Option.map_some, tokenRequestSeen_of]
    rfl
  | credential r =>
    have e : sent (writeCredentialRequest r) readCredentialRequest = some r := (C125_credential_request_iff r).2 h
    rw [carried, e]
    rfl
  | deferred r =>
    have e : sent (writeDeferredRequest r) readDeferredRequest = some r := C125_deferred_request r
    rw [carried, e]
    rfl
  | notification r =>
    have e : sent (writeNotification r) readNotification = some r := C125_notification r
    rw [carried, e]
    rfl
  | logo _ => rfl
  | requestObject _ => rfl
  | present _ _ => rfl
  | save _ => rfl
  | find _ => rfl

/-! ### Responses -/

theorem authorizedSeen_of (d : Issuer.AuthorizedDetail) : authorizedSeen (authorizedOf d) = d := by
  obtain ⟨d, l⟩ := d
  simp only [authorizedSeen, authorizedOf, detailSeen_of]

theorem tokenResponseSeen_of (r : Issuer.TokenResponse) : tokenResponseSeen (tokenResponseOf r) = r := by
  obtain ⟨a, b, c, d, e⟩ := r
  have : (e.map (·.map authorizedOf)).map (·.map authorizedSeen) = e := by
    cases e with
    | none => rfl
    | some l => simp only [Option.map_some, List.map_map, Function.comp_def, authorizedSeen_of, List.map_id']
  simp only [tokenResponseSeen, tokenResponseOf, this]

theorem deliverySeen_of (r : Holder.CredentialResponse) : deliverySeen (deliveryOf r) = r := by
  obtain ⟨a, b, c, d⟩ := r
  cases a <;> rfl

theorem sent_delivery (n : TextNet) {r : Issuer.CredentialResponse} (h : SoundI64 r.cNonceExpiresIn) :
    (sent (writeCredentialResponse n.writePlain (deliveryOf (Interop.deliver n.encode r))) (readCredentialResponse n.readPlain)).map deliverySeen =
      some (Interop.deliver n.encode r) := by
  have hp : ∀ v, v ∉ (deliveryOf (Interop.deliver n.encode r)).response.plain := by
    intro v hv
    obtain ⟨a, b, c, d⟩ := r
    cases a <;> cases hv
  rw [sent_eq (wf_credentialResponse fun v hv => absurd hv (hp v)), readCredentialResponse_write h fun v hv => absurd hv (hp v), Option.map_some, deliverySeen_of]

theorem reply_eq (n : TextNet) (c : Holder.Call) {r : Res Issuer.Resp} (h : ∀ a, r = .ok a → SoundResp n a) : n.reply c r = Interop.reply n.encode c r := by
  have hm : ∀ i, SoundResp n (.metadata i) → (sent (writeIssuerMeta (n.page i)) readIssuerMeta).map issuerSeen = some i := fun i h => by
    have : sent (writeIssuerMeta (n.page i)) readIssuerMeta = some (n.page i) := (C126_issuer_metadata_comes_back_iff _).2 h.2
    rw [this, Option.map_some, h.1]
  have hs : ∀ s, SoundResp n (.oauthServer s) → (sent (writeServerReply (n.serverPage s)) readServerReply).map serverSeen = some s := fun s h => by
    have : sent (writeServerReply (n.serverPage s)) readServerReply = some (n.serverPage s) := C126_server_metadata_round_trip _
    rw [this, Option.map_some, h]
  have ht : ∀ t, SoundResp n (.token t) → (sent (writeTokenResponse (tokenResponseOf t)) readTokenResponse).map tokenResponseSeen = some t := fun t h => by
    have : sent (writeTokenResponse (tokenResponseOf t)) readTokenResponse = some (tokenResponseOf t) := (C125_token_response_iff _).2 h
    rw [this, Option.map_some, tokenResponseSeen_of]
  have ha : ∀ a, sent (writeAuthorizationReply a) readAuthorizationReply = some a := C125_authorization_reply
  cases r with
  | error e => cases c <;> rfl
  | ok a =>
    have h := h a rfl
    cases c <;> cases a <;> first
      | rfl
      | exact hm _ h
      | exact hs _ h
      | exact ht _ h
      | exact ha _
      | exact sent_delivery n h

/-! ### What the issuer answers -/

section
variable {V α β : Type}

/-- What a program returns while the clock stands still, whatever the store and the random source do. -/
def Returns (t : Int) : Prog V α → (α → Prop) → Prop
  | .ret (.ok a), Q => Q a
  | .ret (.error _), _ => True
  | .get _ c, Q => ∀ o, Returns t (c o) Q
  | .put _ _ c, Q => ∀ b, Returns t (c b) Q
  | .purge _ c, Q => ∀ b, Returns t (c b) Q
  | .draw c, Q => ∀ s, Returns t (c s) Q
  | .now c, Q => Returns t (c t) Q

variable {t : Int}

theorem Returns.any (p : Prog V α) : Returns t p fun _ => True := by
  induction p with
  | ret r => cases r <;> trivial
  | get k c ih => exact fun o => ih o
  | put k v c ih => exact fun o => ih o
  | purge k c ih => exact fun o => ih o
  | draw c ih => exact fun o => ih o
  | now c ih => exact ih t

theorem Returns.bind {p : Prog V α} {f : α → Prog V β} {Q : α → Prop} {Q' : β → Prop} (h : Returns t p Q) (hf : ∀ a, Q a → Returns t (f a) Q') :
    Returns t (p >>= f) Q' := by
  show Returns t (p.bind f) Q'
  induction p with
  | ret r =>
    cases r with
    | ok a => exact hf a h
    | error e => trivial
  | get k c ih => exact fun o => ih o (h o)
  | put k v c ih => exact fun o => ih o (h o)
  | purge k c ih => exact fun o => ih o (h o)
  | draw c ih => exact fun o => ih o (h o)
  | now c ih => exact ih t h

theorem Returns.after {p : Prog V α} {f : α → Prog V β} {Q' : β → Prop} (hf : ∀ a, Returns t (f a) Q') : Returns t (p >>= f) Q' :=
  (Returns.any p).bind fun a _ => hf a

theorem Returns.nowE : Returns t (Prog.nowE : Prog V Int) (· = t) := rfl

theorem Returns.run {p : Prog V α} {Q : α → Prop} {w : World V} (h : Returns w.now p Q) (e : Env) : ∀ a, (p.run e w).1 = .ok a → Q a := by
  induction p generalizing w with
  | ret r =>
    rintro a rfl
    exact h
  | get k c ih => exact ih _ (w := { w with ops := w.ops + 1 }) (h _)
  | put k v c ih => exact ih _ (w := { w with store := _, ops := w.ops + 1 }) (h _)
  | purge k c ih => exact ih _ (w := { w with store := _, ops := w.ops + 1 }) (h _)
  | draw c ih => exact ih _ (w := { w with drawn := w.drawn + 1 }) (h _)
  | now c ih => exact ih _ h

end

theorem credential_returns (P : Issuer.Provider) (t : Int) (r : Issuer.CredentialRequest) :
    Returns t (Issuer.credential P r) fun resp => SoundI64 resp.cNonceExpiresIn := by
  unfold Issuer.credential
  refine Returns.after fun s => Returns.after fun ctx => Returns.after fun did => ?_
  unfold Issuer.Credential.process
  refine Returns.after fun ds => ?_
  split
  · unfold Issuer.Credential.deferResponse
    refine Returns.after fun txn => Returns.after fun now => Returns.after fun _ => ?_
    exact fun n h => nomatch h
  · unfold Issuer.Credential.issueResponse
    refine Returns.after fun now => Returns.after fun c => Returns.after fun now1 => ?_
    split
    · refine Returns.after fun nonce => Returns.nowE.bind fun now2 h2 => Returns.after fun _ => Returns.after fun nid => Returns.after fun _ => Returns.nowE.bind fun now3 h3 => ?_
      rintro n ⟨⟩
      rw [h2, h3]
      simp only [Issuer.Token.cNonceExpiresIn]
      rw [show t + Issuer.nonceDur - t = Issuer.nonceDur by omega]
      decide
    · trivial

theorem deferred_returns (P : Issuer.Provider) (t : Int) (r : Issuer.DeferredRequest) :
    Returns t (Issuer.deferred P r) fun resp => SoundI64 resp.cNonceExpiresIn := by
  unfold Issuer.deferred
  refine Returns.after fun s => Returns.after fun now => Returns.after fun _ => Returns.after fun saved => Returns.after fun _ => ?_
  refine (credential_returns P t _).bind fun resp h => ?_
  split
  · trivial
  · exact h

theorem find_mem {items : List Issuer.AuthorizedItem} {ds : List Verif.AuthorizationDetail} {iss : Verif.Issuer} {l : List Issuer.AuthorizedItem}
    (h : Issuer.Token.retainLoop iss items ds = .ok l) : ∀ i ∈ l, i ∈ items := by
  induction ds generalizing l with
  | nil => cases h; exact fun _ h => nomatch h
  | cons d ds ih =>
    simp only [Issuer.Token.retainLoop, Except.bind_ok, orErr_ok, pure, Except.pure, Except.ok.injEq] at h
    obtain ⟨it, h1, -, -, rest, h2, rfl⟩ := h
    intro i hi
    rcases List.mem_cons.1 hi with rfl | hi
    · exact List.mem_of_find?_eq_some h1
    · exact ih h2 i hi

theorem granted_sound {P : Issuer.Provider} {s : Issuer.State} {r : Issuer.TokenRequest} {items : List Issuer.AuthorizedItem} (hs : Storable s)
    (h : Issuer.Token.grantedItems P s r = .ok items) : ∀ i ∈ items, SoundItem i := by
  unfold Issuer.Token.grantedItems at h
  unfold Storable SoundStage at hs
  split at h
  · split at h
    · rename_i o ho
      rw [ho] at hs
      simp only [Except.bind_ok, orErr_ok] at h
      obtain ⟨l, hl, h⟩ := h
      have hl' := hs l hl
      unfold Issuer.Token.retainDetails at h
      split at h
      · cases h; exact hl'
      · simp only [Except.bind_ok] at h
        obtain ⟨iss, -, h⟩ := h
        exact fun i hi => hl' i (find_mem h i hi)
    · cases h
  · split at h
    · rename_i a ha
      rw [ha] at hs
      cases h
      exact hs
    · cases h

theorem authorized_sound {items : List Issuer.AuthorizedItem} (h : ∀ i ∈ items, SoundItem i) :
    ∀ l, Issuer.Token.authorizedDetails items = some l → ∀ d ∈ l, (detailOf d.detail).Sound := by
  intro l hl d hd
  simp only [Issuer.Token.authorizedDetails] at hl
  split at hl
  · cases hl
  · cases hl
    obtain ⟨i, hi, e⟩ := List.mem_filterMap.1 hd
    split at e
    · rename_i d' hd'
      cases e
      exact h i hi d' hd'
    · cases e

theorem token_sound {k n : String} {items : List Issuer.AuthorizedItem} (h : ∀ i ∈ items, SoundItem i) :
    (tokenResponseOf (Issuer.Token.response k n items)).Sound := by
  refine ⟨?_, ?_, ?_⟩
  · rintro x ⟨⟩
    show -2 ^ 63 ≤ Issuer.numSeconds Issuer.accessDur ∧ Issuer.numSeconds Issuer.accessDur < 2 ^ 63
    decide
  · rintro x ⟨⟩; decide
  · intro l hl d hd
    obtain ⟨l', e, rfl⟩ := Option.map_eq_some_iff.1 hl
    obtain ⟨d', hd', rfl⟩ := List.mem_map.1 hd
    exact authorized_sound h l' e d' hd'

end Verif.Wire
