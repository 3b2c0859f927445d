import Verif.Wire.MessageLemmas
import Verif.Wire.CredentialProps
import Verif.Wire.StoreProps
/-!
# C125: The messages of the issuance flow mean the same on both sides
-/
namespace Verif.Wire

/-! ### Specification -/

/-- What the other side makes of a message sent as JSON text. -/
def overText {α : Type} (write : α → Json) (read : Json → Option α) (a : α) : Option α := (parseJson (write a).chars).bind read

/-- The lifetime of the nonce is an `i64`, and the credentials that are not signed can be put in words. -/
def CredentialResponse.Sound (c : CredentialResponse Vc) : Prop := SoundI64 c.cNonceExpiresIn ∧ ∀ v ∈ c.response.plain, v.Sound

/-! ### Proofs -/

theorem overText_eq {α : Type} {write : α → Json} {read : Json → Option α} {a : α} (hw : (write a).WF) : overText write read a = read (write a) := by
  rw [overText, parseJson_chars _ hw, Option.bind_some]

/-- C125: What is asked when an offer is to be made is read as it was sent. -/
theorem C125_create_offer (r : Issuer.CreateOfferRequest) : overText writeCreateOffer readCreateOffer r = some r := by
  rw [overText_eq (wf_createOffer r), readCreateOffer_write]

/-- C125: An offer that was made is read as it was sent, with the PIN. -/
theorem C125_offered (r : Issuer.CreateOfferResponse) : overText writeOffered readOffered r = some r := by rw [overText_eq (wf_offered r), readOffered_write]

/-- C125: What is asked when an offer is fetched is read as it was sent. -/
theorem C125_offer_request (r : Issuer.CredentialOfferRequest) : overText writeOfferRequest readOfferRequest r = some r := by
  rw [overText_eq (wf_offerRequest r), readOfferRequest_write]

/-- C125: An offer that was fetched is read as it was sent. -/
theorem C125_offer_reply (o : Issuer.CredentialOffer) : overText writeOfferReply readOfferReply o = some o := by
  rw [overText_eq (wf_offerReply o), readOfferReply_write]

/-- C125: The answer to an authorization request is read as it was sent. -/
theorem C125_authorization_reply (r : Issuer.AuthorizationResponse) : overText writeAuthorizationReply readAuthorizationReply r = some r := by
  rw [overText_eq (wf_authorizationReply r), readAuthorizationReply_write]

/-- C125: The answer to a pushed authorization request is read as it was sent, exactly if its lifetime is an `i64`. -/
theorem C125_pushed_reply_iff (r : Issuer.ParResponse) : overText writeParReply readParReply r = some r ↔ SoundI64 (some r.expiresIn) := by
  rw [overText_eq (wf_parReply r)]
  refine ⟨fun h => ?_, readParReply_write⟩
  unfold readParReply at h
  obtain ⟨l, -, h⟩ := Option.bind_eq_some_iff.1 h
  match l, h with
  | [u, e], h =>
    obtain ⟨_, -, h⟩ := Option.bind_eq_some_iff.1 h
    obtain ⟨n, hn, h⟩ := Option.bind_eq_some_iff.1 h
    cases h
    exact reqI64_sound hn

/-- C125: A token request is read as it was sent exactly if its authorization details can be put in words. -/
theorem C125_token_request_iff (r : TokenRequest) : overText writeTokenRequest readTokenRequest r = some r ↔ r.Sound := by
  rw [overText_eq (wf_tokenRequest r)]
  exact ⟨readTokenRequest_sound, readTokenRequest_write⟩

/-- C125: Whatever token request is read comes back when it is sent on. -/
theorem C125_token_request_stable (j : Json) (r : TokenRequest) (h : readTokenRequest j = some r) : overText writeTokenRequest readTokenRequest r = some r :=
  (C125_token_request_iff r).2 (readTokenRequest_sound h)

/-- C125: A token response is read as it was sent exactly if its lifetimes are `i64` and its authorization details can be put in words. -/
theorem C125_token_response_iff (r : TokenResponse) : overText writeTokenResponse readTokenResponse r = some r ↔ r.Sound := by
  rw [overText_eq (wf_tokenResponse r)]
  exact ⟨readTokenResponse_sound, readTokenResponse_write⟩

/-- C125: A credential request is read as it was sent exactly if what it asks for can be put in words. -/
theorem C125_credential_request_iff (r : Issuer.CredentialRequest) : overText writeCredentialRequest readCredentialRequest r = some r ↔ SoundIssuance r.credential := by
  rw [overText_eq (wf_credentialRequest r)]
  exact ⟨readCredentialRequest_sound, readCredentialRequest_write⟩

/-- C125: A credential response, immediate or deferred, comes back from the wire exactly if its lifetime is an `i64` and the credentials in it that are not signed
can be put in words. -/
theorem C125_credential_response_iff (T : TimeText) (c : CredentialResponse Vc) :
    readCredentialResponse (readVc T) (writeCredentialResponse (writeVc T) c) = some c ↔ c.Sound := by
  refine ⟨fun h => ?_, fun h => readCredentialResponse_write h.1 fun v hv => ⟨readVc_write T (h.2 v hv), obj_ne_str (writeVc_obj T) v⟩⟩
  rw [readCredentialResponse, writeCredentialResponse, flatFields_after (names := ["c_nonce", "c_nonce_expires_in", "notification_id"]) rfl (by decide)
    (writeDelivered_keys _ _)] at h
  simp only [List.map_cons, List.map_nil, Option.bind_eq_bind, Option.bind_some] at h
  obtain ⟨d, hd, h⟩ := Option.bind_eq_some_iff.1 h
  obtain ⟨_, -, h⟩ := Option.bind_eq_some_iff.1 h
  obtain ⟨e, he, h⟩ := Option.bind_eq_some_iff.1 h
  obtain ⟨_, -, h⟩ := Option.bind_eq_some_iff.1 h
  have e1 : d = c.response := congrArg CredentialResponse.response (Option.some.inj h)
  have e2 : e = c.cNonceExpiresIn := congrArg CredentialResponse.cNonceExpiresIn (Option.some.inj h)
  subst e1 e2
  refine ⟨fun n hn => ?_, fun v hv => ?_⟩
  · rw [hn] at he
    exact readI64_range (optional_back he n rfl)
  · refine (C119_credential_comes_back_iff T v).1 ?_
    generalize c.response = d at *
    cases d with
    | credential k =>
      cases k with
      | string s => cases hv
      | object a =>
        obtain rfl : v = a := List.mem_singleton.1 hv
        have hd' : (readKind (readVc T) (writeKind (writeVc T) (.object v))).map Delivered.credential = some (.credential (.object v)) := hd
        obtain ⟨k, hk, e⟩ := Option.map_eq_some_iff.1 hd'
        cases e
        exact readKind_inner hk
    | credentials l =>
      have hd' : (readVec (readKind (readVc T)) (writeVec (writeKind (writeVc T)) l)).map Delivered.credentials = some (.credentials l) := hd
      obtain ⟨k, hk, e⟩ := Option.map_eq_some_iff.1 hd'
      cases e
      have hm : Kind.object v ∈ l := by
        simp only [Delivered.plain, List.mem_filterMap] at hv
        obtain ⟨k, hk, e⟩ := hv
        cases k with
        | string s => cases e
        | object a => cases e; exact hk
      exact readKind_inner (mapM_back hk _ hm)
    | transactionId t => cases hv

/-- C125: A response with signed credentials only, or with a transaction to come back with, is read as it was sent, as text. -/
theorem C125_signed_response (T : TimeText) (c : CredentialResponse Vc) (hp : c.response.plain = []) (hn : SoundI64 c.cNonceExpiresIn) :
    overText (writeCredentialResponse (writeVc T)) (readCredentialResponse (readVc T)) c = some c := by
  have : ∀ v, v ∉ c.response.plain := by simp [hp]
  rw [overText_eq (wf_credentialResponse fun v hv => absurd hv (this v)), C125_credential_response_iff]
  exact ⟨hn, fun v hv => absurd hv (this v)⟩

/-- C125: A request for a deferred credential is read as it was sent. -/
theorem C125_deferred_request (r : Issuer.DeferredRequest) : overText writeDeferredRequest readDeferredRequest r = some r := by
  rw [overText_eq (wf_deferredRequest r), readDeferredRequest_write]

/-- C125: A notification is read as it was sent. -/
theorem C125_notification (r : Holder.Notification) : overText writeNotification readNotification r = some r := by
  rw [overText_eq (wf_notification r), readNotification_write]

/-! ### Members that are dropped -/

/-- C125 is violated for client assertions that are malformed: they are taken for none, the token request is read without them. -/
theorem C125_bad_assertion_dropped (c t j : Json) (issuer code : String) (h : ∀ s, t ≠ .str s) :
    readTokenRequest (.obj [("credential_issuer", .str issuer), ("client_id", c), ("grant_type", .str "authorization_code"), ("code", .str code),
      ("client_assertion_type", j), ("client_assertion", t)]) =
    readTokenRequest (.obj [("credential_issuer", .str issuer), ("client_id", c), ("grant_type", .str "authorization_code"), ("code", .str code)]) := by
  have e1 : flatFields ["credential_issuer", "client_id", "authorization_details"] (.obj [("credential_issuer", .str issuer), ("client_id", c),
      ("grant_type", .str "authorization_code"), ("code", .str code), ("client_assertion_type", j), ("client_assertion", t)]) =
      some ([some (.str issuer), some c, none], [("grant_type", .str "authorization_code"), ("code", .str code), ("client_assertion_type", j), ("client_assertion", t)]) := rfl
  have e2 : flatFields ["credential_issuer", "client_id", "authorization_details"] (.obj [("credential_issuer", .str issuer), ("client_id", c),
      ("grant_type", .str "authorization_code"), ("code", .str code)]) =
      some ([some (.str issuer), some c, none], [("grant_type", .str "authorization_code"), ("code", .str code)]) := rfl
  have e3 : readGrantType [("grant_type", .str "authorization_code"), ("code", .str code), ("client_assertion_type", j), ("client_assertion", t)] =
      readGrantType [("grant_type", .str "authorization_code"), ("code", .str code)] := rfl
  have e4 : readAssertion [("grant_type", .str "authorization_code"), ("code", .str code), ("client_assertion_type", j), ("client_assertion", t)] = none := by
    have a1 : single [("grant_type", .str "authorization_code"), ("code", .str code), ("client_assertion_type", j), ("client_assertion", t)] "client_assertion" = some (some t) := rfl
    rw [readAssertion, a1]
    split
    · rename_i s _ e
      exact absurd (Option.some.inj (Option.some.inj e)) (h s)
    · rfl
  have e5 : readAssertion [("grant_type", .str "authorization_code"), ("code", .str code)] = none := rfl
  rw [readTokenRequest, readTokenRequest, e1, e2]
  simp only [Option.bind_eq_bind, Option.bind_some, e3, e4, e5]

/-- C125 is violated for proofs that are malformed: a proof whose type is not known is taken for no proof at all. -/
theorem C125_bad_proof_dropped (issuer token id t : String) (m : List (String × Json)) (h : t ≠ "jwt") :
    readCredentialRequest (.obj [("credential_issuer", .str issuer), ("access_token", .str token), ("credential_identifier", .str id),
      ("proof", .obj (("proof_type", .str t) :: m))]) =
    readCredentialRequest (.obj [("credential_issuer", .str issuer), ("access_token", .str token), ("credential_identifier", .str id)]) := by
  have e1 : readCredentialRequest (.obj [("credential_issuer", .str issuer), ("access_token", .str token), ("credential_identifier", .str id),
      ("proof", .obj (("proof_type", .str t) :: m))]) =
      some { credentialIssuer := issuer, accessToken := token, credential := .identifier id, proof := readSingleProof (.obj (("proof_type", .str t) :: m)) } := rfl
  have e2 : readCredentialRequest (.obj [("credential_issuer", .str issuer), ("access_token", .str token), ("credential_identifier", .str id)]) =
      some { credentialIssuer := issuer, accessToken := token, credential := .identifier id, proof := none } := rfl
  have e3 : readSingleProof (.obj (("proof_type", .str t) :: m)) = none := by
    rw [readSingleProof]
    have : single (("proof_type", .str t) :: m) "proof_type" = some (some (.str t)) ∨ single (("proof_type", .str t) :: m) "proof_type" = none := by
      unfold single
      rw [List.filter_cons_of_pos (by simp)]
      cases m.filter fun p => decide (p.1 = "proof_type") with
      | nil => exact .inl rfl
      | cons a l => exact .inr rfl
    rcases this with e | e
    · rw [e]
      split
      · rename_i e'
        exact absurd (Json.str.inj (Option.some.inj (Option.some.inj e'))) h
      · rfl
    · rw [e]
  rw [e1, e2, e3]

/-! ### Instances -/

/-- A token request with an authorization code, a verifier and an authorization detail. -/
def sampleTokenRequest : TokenRequest :=
  { credentialIssuer := "http://vercre.io", clientId := some "wallet", grantType := .authorizationCode "abc" (some "http://localhost/cb") (some "verifier"),
    authorizationDetails := some [{ credential := .configurationId "EmployeeID_JWT" none }], clientAssertion := some "h.p.s" }

example : sampleTokenRequest.Sound := by
  rintro l ⟨⟩ d hd
  obtain rfl := List.mem_singleton.1 hd
  trivial

/-- A token response with an authorized detail. -/
def sampleTokenResponse : TokenResponse :=
  { accessToken := "token", expiresIn := 900, cNonce := some "nonce", cNonceExpiresIn := some 900,
    authorizationDetails := some [{ detail := { credential := .configurationId "EmployeeID_JWT" none }, identifiers := ["PHLEmployeeID"] }] }

example : sampleTokenResponse.Sound := by
  refine ⟨?_, ?_, ?_⟩
  · rintro n ⟨⟩; decide
  · rintro n ⟨⟩; decide
  · rintro l ⟨⟩ d hd
    obtain rfl := List.mem_singleton.1 hd
    trivial

/-- A response with a signed credential and a new nonce. -/
def sampleDelivery : CredentialResponse Vc := { response := .credential (.string "h.p.s"), cNonce := some "nonce", cNonceExpiresIn := some 900 }

example : sampleDelivery.response.plain = [] ∧ SoundI64 sampleDelivery.cNonceExpiresIn := by
  refine ⟨rfl, ?_⟩
  rintro n ⟨⟩; decide

end Verif.Wire
