import Verif.Wire.Message
import Verif.Wire.AskedLemmas
import Verif.Wire.CredentialProps
/-!
# Reading back the messages between a wallet and an issuer: lemmas
-/
namespace Verif.Wire

/-! ### Specification -/

/-- The details of a token request, if any, can be put in words. -/
def TokenRequest.Sound (r : TokenRequest) : Prop := ∀ l, r.authorizationDetails = some l → ∀ d ∈ l, d.Sound

/-- The lifetimes of a token response are `i64`, and its details can be put in words. -/
def TokenResponse.Sound (r : TokenResponse) : Prop :=
  SoundI64 (some r.expiresIn) ∧ SoundI64 r.cNonceExpiresIn ∧ ∀ l, r.authorizationDetails = some l → ∀ d ∈ l, d.detail.Sound

/-- The credentials that were delivered without being signed. -/
def Delivered.plain {α : Type} : Delivered α → List α
  | .credential (.object a) => [a]
  | .credential (.string _) => []
  | .credentials l => l.filterMap fun k => match k with
    | .object a => some a
    | .string _ => none
  | .transactionId _ => []

/-! ### Flattened members among others -/

theorem single_filter (m : List (String × Json)) {q : String × Json → Bool} {k : String} (h : ∀ p : String × Json, p.1 = k → q p = true) :
    single (m.filter q) k = single m k := by
  unfold single
  have : (m.filter q).filter (fun p => decide (p.1 = k)) = m.filter (fun p => decide (p.1 = k)) := by
    rw [List.filter_filter]
    refine List.filter_congr fun p _ => ?_
    by_cases e : p.1 = k
    · simp [e, h p e]
    · simp [e]
  rw [this]

/-- The members of a struct may stand anywhere among the others. -/
theorem flatFields_split {fs : List (String × Option Json)} {names : List String} (e : fs.map Prod.fst = names) (hn : names.Nodup)
    {m rest : List (String × Json)} (h1 : m.filter (fun p => decide (p.1 ∈ names)) = members fs) (h2 : m.filter (fun p => decide (¬ p.1 ∈ names)) = rest) :
    flatFields names (.obj m) = some (fs.map Prod.snd, rest) := by
  subst e
  have h3 : (fs.map Prod.fst).mapM (single m) = some (fs.map Prod.snd) := by
    rw [← mapM_members hn (rest := []) (fun _ h => nomatch h), List.append_nil, ← h1]
    refine mapM_single_perm fun k hk => (single_filter m fun p e => ?_).symm
    rw [e]; simpa using hk
  simp only [flatFields, h3, Option.map_some, h2]

theorem filter_in {names : List String} {m : List (String × Json)} (h : ∀ p ∈ m, p.1 ∈ names) :
    m.filter (fun p => decide (p.1 ∈ names)) = m ∧ m.filter (fun p => decide (¬ p.1 ∈ names)) = [] :=
  ⟨List.filter_eq_self.2 fun p hp => by simpa using h p hp, List.filter_eq_nil_iff.2 fun p hp => by simpa using h p hp⟩

theorem filter_out {names : List String} {m : List (String × Json)} (h : ∀ p ∈ m, p.1 ∉ names) :
    m.filter (fun p => decide (p.1 ∈ names)) = [] ∧ m.filter (fun p => decide (¬ p.1 ∈ names)) = m :=
  ⟨List.filter_eq_nil_iff.2 fun p hp => by simpa using h p hp, List.filter_eq_self.2 fun p hp => by simpa using h p hp⟩

theorem members_append (a b : List (String × Option Json)) : members (a ++ b) = members a ++ members b := List.filterMap_append ..

/-- Two parts of a struct, each followed by other members. -/
theorem flatFields_mixed {fs gs : List (String × Option Json)} {names : List String} (e : (fs ++ gs).map Prod.fst = names) (hn : names.Nodup)
    {a b : List (String × Json)} (ha : ∀ p ∈ a, p.1 ∉ names) (hb : ∀ p ∈ b, p.1 ∉ names) :
    flatFields names (.obj (members fs ++ (a ++ (members gs ++ b)))) = some ((fs ++ gs).map Prod.snd, a ++ b) := by
  have hf : ∀ p ∈ members fs, p.1 ∈ names := fun p hp => by rw [← e, List.map_append]; exact List.mem_append_left _ (members_keys hp)
  have hg : ∀ p ∈ members gs, p.1 ∈ names := fun p hp => by rw [← e, List.map_append]; exact List.mem_append_right _ (members_keys hp)
  refine flatFields_split e hn ?_ ?_
  · simp only [List.filter_append, (filter_in hf).1, (filter_in hg).1, (filter_out ha).1, (filter_out hb).1, List.nil_append, List.append_nil, members_append]
  · simp only [List.filter_append, (filter_in hf).2, (filter_in hg).2, (filter_out ha).2, (filter_out hb).2, List.nil_append]

theorem wf_append {a b : List (String × Json)} (ha : (Json.obj a).WF) (hb : (Json.obj b).WF) : (Json.obj (a ++ b)).WF := by
  rw [Json.WF, wfObj_iff] at *
  intro p hp
  rcases List.mem_append.1 hp with hp | hp
  · exact ha p hp
  · exact hb p hp

/-! ### Offers -/

theorem readSend_write (s : Issuer.SendType) : required (readUnit sendOf) (some (.str (sendName s))) = some s := by cases s <;> simp [required, readUnit, sendOf, sendName]

theorem optGrants (o : Option (List GrantType)) : optional (readVec (readUnit grantOf)) (o.map (writeVec fun g => .str (grantName g))) = some o :=
  optional_written (fun _ _ => readVec_written fun g _ => readGrant_write g) nofun

theorem reqStrs (l : List String) : required (readVec readStr) (some (writeVec .str l)) = some l := readStrs_write l

theorem reqBool (b : Bool) : required readBool (some (.bool b)) = some b := rfl

theorem reqI64 {n : Int} (h : SoundI64 (some n)) : required readI64 (some (writeInt n)) = some n := readI64_write (h n rfl)

theorem wf_bool (b : Bool) : (Json.bool b).WF := by simp [Json.WF]

theorem readCreateOffer_write (r : Issuer.CreateOfferRequest) : readCreateOffer (writeCreateOffer r) = some r := by
  rw [readCreateOffer, writeCreateOffer, structFields_members
    (names := ["credential_issuer", "subject_id", "credential_configuration_ids", "grant_types", "tx_code_required", "send_type"]) rfl (by decide)]
  simp only [List.map_cons, List.map_nil, nonEmpty_read, optStr, reqStrs, optGrants, reqBool, readSend_write, Option.bind_eq_bind, Option.bind_some]

theorem wf_createOffer (r : Issuer.CreateOfferRequest) : (writeCreateOffer r).WF := by
  refine wf_members ?_
  simp only [List.forall_mem_cons]
  exact ⟨wf_nonEmpty _, wf_optStr _, optWF_some (wf_vec wf_str _), optWF_map (wf_vec fun g => wf_str _), optWF_some (wf_bool _), optWF_some (wf_str _), fun _ h => nomatch h⟩

theorem readOfferType_write (o : Issuer.OfferType) : readOfferType (writeOfferType o) = some o := by
  cases o with
  | object o =>
    have : readOfferType (writeOfferType (.object o)) = (readCredentialOffer (writeCredentialOffer o)).map .object := rfl
    rw [this, readCredentialOffer_write]; rfl
  | uri u => rfl

theorem writeOfferType_keys (o : Issuer.OfferType) : ∀ p ∈ writeOfferType o, p.1 ∉ ["tx_code"] := by cases o <;> simp [writeOfferType]

theorem readOffered_write (r : Issuer.CreateOfferResponse) : readOffered (writeOffered r) = some r := by
  rw [readOffered, writeOffered, flatFields_after (names := ["tx_code"]) rfl (by decide) (writeOfferType_keys _)]
  simp only [List.map_cons, List.map_nil, readOfferType_write, optStr, Option.bind_eq_bind, Option.bind_some]

theorem wf_offered (r : Issuer.CreateOfferResponse) : (writeOffered r).WF := by
  refine wf_append ?_ (wf_members ?_)
  · cases r.offerType with
    | object o => rw [writeOfferType, Json.WF, Json.WFObj, Json.WFObj]; exact ⟨wf_credentialOffer o, trivial⟩
    | uri u => rw [writeOfferType, Json.WF, Json.WFObj, Json.WFObj]; exact ⟨wf_str u, trivial⟩
  · simp only [List.forall_mem_cons]
    exact ⟨wf_optStr _, fun _ h => nomatch h⟩

theorem readOfferRequest_write (r : Issuer.CredentialOfferRequest) : readOfferRequest (writeOfferRequest r) = some r := by
  rw [readOfferRequest, writeOfferRequest, structFields_members (names := ["credential_issuer", "id"]) rfl (by decide)]
  rfl

theorem wf_offerRequest (r : Issuer.CredentialOfferRequest) : (writeOfferRequest r).WF := by
  refine wf_members ?_
  simp only [List.forall_mem_cons]
  exact ⟨optWF_some (wf_str _), optWF_some (wf_str _), fun _ h => nomatch h⟩

theorem readOfferReply_write (o : Issuer.CredentialOffer) : readOfferReply (writeOfferReply o) = some o := by
  have h : required readCredentialOffer (some (writeCredentialOffer o)) = some o := readCredentialOffer_write o
  rw [readOfferReply, writeOfferReply, structFields_members (names := ["credential_offer"]) rfl (by decide)]
  generalize writeCredentialOffer o = j at *
  simp only [List.map_cons, List.map_nil, h, Option.bind_eq_bind, Option.bind_some]

theorem wf_offerReply (o : Issuer.CredentialOffer) : (writeOfferReply o).WF := by
  refine wf_members ?_
  simp only [List.forall_mem_cons]
  exact ⟨optWF_some (wf_credentialOffer _), fun _ h => nomatch h⟩

/-! ### Authorization -/

theorem readAuthorizationReply_write (r : Issuer.AuthorizationResponse) : readAuthorizationReply (writeAuthorizationReply r) = some r := by
  rw [readAuthorizationReply, writeAuthorizationReply, structFields_members (names := ["code", "state", "redirect_uri"]) rfl (by decide)]
  simp only [List.map_cons, List.map_nil, reqStr, optStr, Option.bind_eq_bind, Option.bind_some]

theorem wf_authorizationReply (r : Issuer.AuthorizationResponse) : (writeAuthorizationReply r).WF := by
  refine wf_members ?_
  simp only [List.forall_mem_cons]
  exact ⟨optWF_some (wf_str _), wf_optStr _, optWF_some (wf_str _), fun _ h => nomatch h⟩

theorem readParReply_write {r : Issuer.ParResponse} (h : SoundI64 (some r.expiresIn)) : readParReply (writeParReply r) = some r := by
  rw [readParReply, writeParReply, structFields_members (names := ["request_uri", "expires_in"]) rfl (by decide)]
  simp only [List.map_cons, List.map_nil, reqStr, reqI64 h, Option.bind_eq_bind, Option.bind_some]

theorem wf_parReply (r : Issuer.ParResponse) : (writeParReply r).WF := by
  refine wf_members ?_
  simp only [List.forall_mem_cons]
  exact ⟨optWF_some (wf_str _), optWF_some (wf_int _), fun _ h => nomatch h⟩

/-! ### Tokens -/

/-- Names of the members of a grant. -/
def grantNames : List String := ["grant_type", "code", "redirect_uri", "code_verifier", "pre-authorized_code", "tx_code"]

theorem writeGrantType_keys (g : Issuer.TokenGrantType) : ∀ p ∈ writeGrantType g, p.1 ∈ grantNames := by
  intro p hp
  cases g with
  | authorizationCode c u v =>
    have := members_keys hp
    revert this
    generalize p.1 = k
    simp only [List.map_cons, List.map_nil, List.mem_cons, List.not_mem_nil, or_false]
    rintro (rfl | rfl | rfl | rfl) <;> decide
  | preAuthorizedCode c t =>
    have := members_keys hp
    revert this
    generalize p.1 = k
    simp only [List.map_cons, List.map_nil, List.mem_cons, List.not_mem_nil, or_false]
    rintro (rfl | rfl | rfl) <;> decide

theorem writeAssertion_keys (a : Option String) : ∀ p ∈ writeAssertion a, p.1 ∈ ["client_assertion_type", "client_assertion"] := by cases a <;> simp [writeAssertion]

theorem readGrantType_write (g : Issuer.TokenGrantType) (a : Option String) : readGrantType (writeGrantType g ++ writeAssertion a) = some g := by
  have hr : ∀ k ∈ grantNames, ∀ p ∈ writeAssertion a, p.1 ≠ k := fun k hk p hp e => by
    have := writeAssertion_keys a p hp
    rw [e] at this
    revert this
    revert hk
    generalize k = k
    simp only [grantNames, List.mem_cons, List.not_mem_nil, or_false]
    rintro (rfl | rfl | rfl | rfl | rfl | rfl) <;> decide
  have hs : ∀ k ∈ grantNames, single (writeGrantType g ++ writeAssertion a) k = single (writeGrantType g) k := fun k hk => single_after _ _ _ (hr k hk)
  rw [readGrantType, hs "grant_type" (by decide), hs "code" (by decide), hs "redirect_uri" (by decide), hs "code_verifier" (by decide),
    hs "pre-authorized_code" (by decide), hs "tx_code" (by decide)]
  clear hs hr
  cases g with
  | authorizationCode c u v => cases u <;> cases v <;> rfl
  | preAuthorizedCode c t => cases t <;> rfl

theorem readAssertion_write (g : Issuer.TokenGrantType) (a : Option String) : readAssertion (writeGrantType g ++ writeAssertion a) = a := by
  have hs : ∀ k ∉ grantNames, single (writeGrantType g ++ writeAssertion a) k = single (writeAssertion a) k := fun k hk =>
    single_append _ _ _ fun p hp e => hk (e ▸ writeGrantType_keys g p hp)
  rw [readAssertion, hs "client_assertion_type" (by decide), hs "client_assertion" (by decide)]
  cases a <;> rfl

theorem optDetails {o : Option (List AuthorizationDetail)} (h : ∀ l, o = some l → ∀ d ∈ l, d.Sound) :
    optional (readVec readDetail) (o.map (writeVec writeDetail)) = some o :=
  optional_written (fun l hl => readVec_written fun d hm => readDetail_write (h l hl d hm)) (fun _ h => nomatch h)

theorem readTokenRequest_write {r : TokenRequest} (h : r.Sound) : readTokenRequest (writeTokenRequest r) = some r := by
  have hn : optional readStr (some (nullable .str r.clientId)) = some r.clientId := by cases r.clientId <;> rfl
  have hf := flatFields_mixed (fs := [("credential_issuer", nonEmpty r.credentialIssuer), ("client_id", some (nullable .str r.clientId))])
    (gs := [("authorization_details", r.authorizationDetails.map (writeVec writeDetail))]) (names := ["credential_issuer", "client_id", "authorization_details"])
    rfl (by decide) (a := writeGrantType r.grantType) (b := writeAssertion r.clientAssertion)
    (fun p hp => by
      have := writeGrantType_keys _ p hp
      revert this
      generalize p.1 = k
      simp only [grantNames, List.mem_cons, List.not_mem_nil, or_false]
      rintro (rfl | rfl | rfl | rfl | rfl | rfl) <;> decide)
    (fun p hp => by
      have := writeAssertion_keys _ p hp
      revert this
      generalize p.1 = k
      simp only [List.mem_cons, List.not_mem_nil, or_false]
      rintro (rfl | rfl) <;> decide)
  rw [readTokenRequest, writeTokenRequest, hf]
  simp only [List.map_cons, List.map_nil, List.cons_append, List.nil_append, nonEmpty_read, hn, readGrantType_write, optDetails h, readAssertion_write, Option.bind_eq_bind,
    Option.bind_some]

theorem wf_nullable (o : Option String) : OptWF (some (nullable .str o)) := by
  cases o with
  | none => exact optWF_some (by simp [nullable, Json.WF])
  | some s => exact optWF_some (wf_str s)

theorem wf_tokenRequest (r : TokenRequest) : (writeTokenRequest r).WF := by
  refine wf_append (wf_members ?_) (wf_append ?_ (wf_append (wf_members ?_) ?_))
  · simp only [List.forall_mem_cons]
    exact ⟨wf_nonEmpty _, wf_nullable _, fun _ h => nomatch h⟩
  · cases r.grantType with
    | authorizationCode c u v =>
      refine wf_members ?_
      simp only [List.forall_mem_cons]
      exact ⟨optWF_some (wf_str _), optWF_some (wf_str _), wf_optStr _, wf_optStr _, fun _ h => nomatch h⟩
    | preAuthorizedCode c t =>
      refine wf_members ?_
      simp only [List.forall_mem_cons]
      exact ⟨optWF_some (wf_str _), optWF_some (wf_str _), wf_optStr _, fun _ h => nomatch h⟩
  · simp only [List.forall_mem_cons]
    exact ⟨optWF_map (wf_vec wf_detail), fun _ h => nomatch h⟩
  · cases r.clientAssertion with
    | none => simp [writeAssertion, Json.WF, Json.WFObj]
    | some t => simp [writeAssertion, Json.WF, Json.WFObj]

theorem readTokenRequest_sound {j : Json} {r : TokenRequest} (h : readTokenRequest j = some r) : r.Sound := by
  unfold readTokenRequest at h
  obtain ⟨⟨l, rest⟩, -, h⟩ := Option.bind_eq_some_iff.1 h
  match l, h with
  | [i, c, a], h =>
    simp only at h
    iterate 3 obtain ⟨_, -, h⟩ := Option.bind_eq_some_iff.1 h
    obtain ⟨ds, hd, h⟩ := Option.bind_eq_some_iff.1 h
    cases h
    intro l hl
    simp only at hl
    subst hl
    obtain ⟨j, hj⟩ := optional_some hd
    exact readVec_all (fun j d => readDetail_sound) hj

theorem detailMembers_obj (d : AuthorizationDetail) : Json.obj (detailMembers d) = writeDetail d := rfl

theorem detailMembers_keys (d : AuthorizationDetail) : ∀ p ∈ detailMembers d, p.1 ∉ ["credential_identifiers"] := by
  intro p hp
  simp only [detailMembers, List.cons_append, List.mem_cons, List.mem_append] at hp
  rcases hp with rfl | hp | hp
  · decide
  · rcases hc : d.credential with ⟨id, _ | c⟩ | f <;> rw [hc] at hp
    · simp only [writeCredential, List.mem_singleton] at hp; subst hp; simp
    · cases c <;> simp only [writeCredential, writeProfileClaims, List.mem_cons, List.not_mem_nil, or_false] at hp <;> rcases hp with rfl | rfl <;> simp
    · have := writeFormat_keys f p hp
      revert this
      generalize p.1 = k
      simp only [formatNames, List.mem_cons, List.not_mem_nil, or_false]
      rintro (rfl | rfl | rfl | rfl | rfl) <;> decide
  · rw [opt_keys p hp]; decide

theorem readAuthorizedDetail_write {d : AuthorizedDetail} (h : d.detail.Sound) : readAuthorizedDetail (writeAuthorizedDetail d) = some d := by
  rw [readAuthorizedDetail, writeAuthorizedDetail, flatFields_after (names := ["credential_identifiers"]) rfl (by decide) (detailMembers_keys _)]
  simp only [List.map_cons, List.map_nil, detailMembers_obj, readDetail_write h, reqStrs, Option.bind_eq_bind, Option.bind_some]

theorem wf_authorizedDetail (d : AuthorizedDetail) : (writeAuthorizedDetail d).WF := by
  refine wf_append (wf_detail d.detail) (wf_members ?_)
  simp only [List.forall_mem_cons]
  exact ⟨optWF_some (wf_vec wf_str _), fun _ h => nomatch h⟩

theorem readTokenResponse_write {r : TokenResponse} (h : r.Sound) : readTokenResponse (writeTokenResponse r) = some r := by
  have h1 : optional (readVec readAuthorizedDetail) (r.authorizationDetails.map (writeVec writeAuthorizedDetail)) = some r.authorizationDetails :=
    optional_written (fun l hl => readVec_written fun d hm => readAuthorizedDetail_write (h.2.2 l hl d hm)) (fun _ h => nomatch h)
  have h2 : required readTokenType (some (.str "Bearer")) = some () := by simp [required, readTokenType, readUnit]
  rw [readTokenResponse, writeTokenResponse, structFields_members
    (names := ["access_token", "token_type", "expires_in", "c_nonce", "c_nonce_expires_in", "authorization_details"]) rfl (by decide)]
  simp only [List.map_cons, List.map_nil, reqStr, h2, reqI64 h.1, optStr, optI64 h.2.1, h1, Option.bind_eq_bind, Option.bind_some]

theorem wf_tokenResponse (r : TokenResponse) : (writeTokenResponse r).WF := by
  refine wf_members ?_
  simp only [List.forall_mem_cons]
  exact ⟨optWF_some (wf_str _), optWF_some (wf_str _), optWF_some (wf_int _), wf_optStr _, optWF_map wf_int, optWF_map (wf_vec wf_authorizedDetail), fun _ h => nomatch h⟩

theorem readAuthorizedDetail_sound {j : Json} {d : AuthorizedDetail} (h : readAuthorizedDetail j = some d) : d.detail.Sound := by
  unfold readAuthorizedDetail at h
  obtain ⟨⟨l, rest⟩, -, h⟩ := Option.bind_eq_some_iff.1 h
  match l, h with
  | [i], h =>
    simp only at h
    obtain ⟨d', hd, h⟩ := Option.bind_eq_some_iff.1 h
    obtain ⟨_, -, h⟩ := Option.bind_eq_some_iff.1 h
    cases h
    exact readDetail_sound hd

theorem reqI64_sound {o : Option Json} {n : Int} (h : required readI64 o = some n) : SoundI64 (some n) := by
  obtain ⟨j, hj⟩ := required_some h
  rintro _ ⟨⟩
  exact readI64_range hj

theorem readTokenResponse_sound {j : Json} {r : TokenResponse} (h : readTokenResponse j = some r) : r.Sound := by
  unfold readTokenResponse at h
  obtain ⟨l, -, h⟩ := Option.bind_eq_some_iff.1 h
  match l, h with
  | [a, t, e, n, ne, d], h =>
    simp only at h
    iterate 2 obtain ⟨_, -, h⟩ := Option.bind_eq_some_iff.1 h
    obtain ⟨e', he, h⟩ := Option.bind_eq_some_iff.1 h
    obtain ⟨_, -, h⟩ := Option.bind_eq_some_iff.1 h
    obtain ⟨ne', hne, h⟩ := Option.bind_eq_some_iff.1 h
    obtain ⟨ds, hd, h⟩ := Option.bind_eq_some_iff.1 h
    cases h
    refine ⟨reqI64_sound he, optI64_sound hne, ?_⟩
    intro l hl
    simp only at hl
    subst hl
    obtain ⟨j, hj⟩ := optional_some hd
    exact readVec_all (fun j d => readAuthorizedDetail_sound) hj

/-! ### Credentials -/

theorem readDelivered_write {α : Type} {r : Json → Option α} {w : α → Json} {d : Delivered α} (h : ∀ a ∈ d.plain, r (w a) = some a ∧ ∀ s, w a ≠ .str s) :
    readDelivered r (writeDelivered w d) = some d := by
  cases d with
  | credential k =>
    have e : readDelivered r (writeDelivered w (.credential k)) = (readKind r (writeKind w k)).map .credential := rfl
    rw [e, readKind_write fun a ha => h a (by subst ha; simp [Delivered.plain])]
    rfl
  | credentials l =>
    have e : readDelivered r (writeDelivered w (.credentials l)) = (readVec (readKind r) (writeVec (writeKind w) l)).map .credentials := rfl
    rw [e, readVec_written fun k hk => readKind_write fun a ha => h a (by subst ha; exact List.mem_filterMap.2 ⟨_, hk, rfl⟩)]
    rfl
  | transactionId t => rfl

theorem writeDelivered_keys {α : Type} (w : α → Json) (d : Delivered α) : ∀ p ∈ writeDelivered w d, p.1 ∉ ["c_nonce", "c_nonce_expires_in", "notification_id"] := by
  cases d <;> simp [writeDelivered]

theorem readCredentialResponse_write {α : Type} {r : Json → Option α} {w : α → Json} {c : CredentialResponse α} (h1 : SoundI64 c.cNonceExpiresIn)
    (h : ∀ a ∈ c.response.plain, r (w a) = some a ∧ ∀ s, w a ≠ .str s) : readCredentialResponse r (writeCredentialResponse w c) = some c := by
  rw [readCredentialResponse, writeCredentialResponse, flatFields_after (names := ["c_nonce", "c_nonce_expires_in", "notification_id"]) rfl (by decide)
    (writeDelivered_keys _ _)]
  simp only [List.map_cons, List.map_nil, readDelivered_write h, optStr, optI64 h1, Option.bind_eq_bind, Option.bind_some]

theorem wf_kind {α : Type} {w : α → Json} {k : Kind α} (h : ∀ a, k = .object a → (w a).WF) : (writeKind w k).WF := by
  cases k with
  | string s => exact wf_str s
  | object a => exact h a rfl

theorem wf_credentialResponse {α : Type} {w : α → Json} {c : CredentialResponse α} (h : ∀ a ∈ c.response.plain, (w a).WF) : (writeCredentialResponse w c).WF := by
  refine wf_append ?_ (wf_members ?_)
  · cases hd : c.response with
    | credential k =>
      rw [writeDelivered, Json.WF, Json.WFObj, Json.WFObj]
      exact ⟨wf_kind fun a ha => h a (by subst ha; rw [hd]; simp [Delivered.plain]), trivial⟩
    | credentials l =>
      rw [writeDelivered, Json.WF, Json.WFObj, Json.WFObj]
      refine ⟨?_, trivial⟩
      rw [writeVec, Json.WF, wfArr_iff]
      intro j hj
      obtain ⟨k, hk, rfl⟩ := List.mem_map.1 hj
      exact wf_kind fun a ha => h a (by subst ha; rw [hd]; exact List.mem_filterMap.2 ⟨_, hk, rfl⟩)
    | transactionId t => rw [writeDelivered, Json.WF, Json.WFObj, Json.WFObj]; exact ⟨wf_str t, trivial⟩
  · simp only [List.forall_mem_cons]
    exact ⟨wf_optStr _, optWF_map wf_int, wf_optStr _, fun _ h => nomatch h⟩

theorem readDeferredRequest_write (r : Issuer.DeferredRequest) : readDeferredRequest (writeDeferredRequest r) = some r := by
  rw [readDeferredRequest, writeDeferredRequest, structFields_members (names := ["credential_issuer", "access_token", "transaction_id"]) rfl (by decide)]
  simp only [List.map_cons, List.map_nil, nonEmpty_read, reqStr, Option.bind_eq_bind, Option.bind_some]

theorem wf_deferredRequest (r : Issuer.DeferredRequest) : (writeDeferredRequest r).WF := by
  refine wf_members ?_
  simp only [List.forall_mem_cons]
  exact ⟨wf_nonEmpty _, wf_nonEmpty _, optWF_some (wf_str _), fun _ h => nomatch h⟩

/-! ### Notifications -/

theorem readEvent_write (e : Holder.NotificationEvent) : required (readUnit eventOf) (some (.str (eventName e))) = some e := by
  cases e <;> simp [required, readUnit, eventOf, eventName]

theorem readNotification_write (r : Holder.Notification) : readNotification (writeNotification r) = some r := by
  have h : optional readStr none = some none := rfl
  rw [readNotification, writeNotification, structFields_members (names := ["credential_issuer", "access_token", "notification_id", "event", "event_description"]) rfl (by decide)]
  simp only [List.map_cons, List.map_nil, nonEmpty_read, reqStr, readEvent_write, h, Option.bind_eq_bind, Option.bind_some]

theorem wf_notification (r : Holder.Notification) : (writeNotification r).WF := by
  refine wf_members ?_
  simp only [List.forall_mem_cons]
  exact ⟨wf_nonEmpty _, wf_nonEmpty _, optWF_some (wf_str _), optWF_some (wf_str _), wf_optStr none, fun _ h => nomatch h⟩

end Verif.Wire
