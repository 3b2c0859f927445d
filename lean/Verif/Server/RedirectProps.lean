import Verif.Server.Redirect
import Verif.Server.Props
import Verif.Core.ErrorProps
import Verif.Wire.QueryProps
/-!
# C167, C168: what the example servers tell their callers
-/
namespace Verif.Server
open Issuer (RequestObject AuthorizationRequest Req Resp Provider Step)
open Prog

/-! ### Specification -/

/-- The query of a URL: what is between the first `?` and the fragment. -/
def queryPart (url : List Char) : List Char := ((url.dropWhile (· ≠ '?')).drop 1).takeWhile (· ≠ '#')

/-- The parameters that a client finds in the URL it was called with, as forms are read. -/
def received (lossy : List UInt8 → List Char) (url : List Char) : List (String × String) := Wire.parseForm lossy (utf8 (queryPart url))

/-- An address without query and fragment. -/
def Bare (uri : String) : Prop := '?' ∉ uri.toList ∧ '#' ∉ uri.toList

/-- Letters, digits, `-` and `_`, of which tokens are made (C40). -/
def UrlSafe (s : String) : Prop := ∀ c ∈ s.toList, c.isAlphanum = true ∨ c = '-' ∨ c = '_'

/-- Parameters, written as in a query. -/
def asQuery : List (String × String) → String
  | [] => ""
  | [(k, v)] => k ++ "=" ++ v
  | (k, v) :: l => k ++ "=" ++ v ++ "&" ++ asQuery l

/-- A fault of the caller: anything but the faults that OAuth has for servers. -/
def CallersFault : Err → Prop
  | .serverError _ => False
  | .temporarilyUnavailable _ => False
  | .panic _ => False
  | _ => True

/-- The code the specifications have for an error, and its description. -/
inductive Tells : Err → String → String → Prop
  | invalidRequest (d : String) : Tells (.invalidRequest d) "invalid_request" d
  | invalidClient (d : String) : Tells (.invalidClient d) "invalid_client" d
  | invalidGrant (d : String) : Tells (.invalidGrant d) "invalid_grant" d
  | unauthorizedClient (d : String) : Tells (.unauthorizedClient d) "unauthorized_client" d
  | unsupportedGrantType (d : String) : Tells (.unsupportedGrantType d) "unsupported_grant_type" d
  | invalidScope (d : String) : Tells (.invalidScope d) "invalid_scope" d
  | invalidAuthorizationDetails (d : String) : Tells (.invalidAuthorizationDetails d) "invalid_authorization_details" d
  | accessDenied (d : String) : Tells (.accessDenied d) "access_denied" d
  | unsupportedResponseType (d : String) : Tells (.unsupportedResponseType d) "unsupported_response_type" d
  | serverError (d : String) : Tells (.serverError d) "server_error" d
  | temporarilyUnavailable (d : String) : Tells (.temporarilyUnavailable d) "temporarily_unavailable" d
  | invalidCredentialRequest (d : String) : Tells (.invalidCredentialRequest d) "invalid_credential_request" d
  | unsupportedCredentialType (d : String) : Tells (.unsupportedCredentialType d) "unsupported_credential_type" d
  | unsupportedFormat (d : String) : Tells (.unsupportedFormat d) "unsupported_credential_format" d
  | invalidEncryptionParameters (d : String) : Tells (.invalidEncryptionParameters d) "invalid_encryption_parameters" d
  | invalidTransactionId (d : String) : Tells (.invalidTransactionId d) "invalid_transaction_id" d
  | vpFormatsNotSupported (d : String) : Tells (.vpFormatsNotSupported d) "vp_formats_not_supported" d
  | invalidPresentationDefinitionUri (d : String) : Tells (.invalidPresentationDefinitionUri d) "invalid_presentation_definition_uri" d
  | invalidPresentationDefinitionReference (d : String) : Tells (.invalidPresentationDefinitionReference d) "invalid_presentation_definition_reference" d
  | walletUnavailable (d : String) : Tells (.walletUnavailable d) "wallet_unavailable" d

/-! ### C167 -/

/-- **C167** At the example issuer, what is answered with status 200 is exactly what succeeded. Missing: telling failures apart (`C167_violated_callers_fault_is_500`). -/
theorem C167_success_is_200_partial (a : Around) (P : Provider) (wait : Nat) (s : Site) (host bearer : String) (req : Req) :
    status (serve a P wait s (.api host bearer req)).1 = some 200 ↔ ∃ r, (serve a P wait s (.api host bearer req)).1 = .ok r := by
  generalize (serve a P wait s (.api host bearer req)).1 = x
  cases x <;> simp [status]

/-- **C167 is false**: whoever is at fault, the status says it was the server. -/
theorem C167_violated_callers_fault_is_500 (a : Around) (P : Provider) (wait : Nat) (s : Site) (host bearer : String) (req req' : Req) (h : addressed host bearer req = some req')
    (e : Err) (he : (Issuer.step a.env s.issuer { provider := P, wait, req := req' }).1 = .error e) (hf : CallersFault e) :
    status (serve a P wait s (.api host bearer req)).1 = some 500 := by
  have : (serve a P wait s (.api host bearer req)).1 = reply (Issuer.step a.env s.issuer { provider := P, wait, req := req' }).1 := by simp only [serve, h]
  rw [this, he]
  cases e <;> first | exact hf.elim | rfl

/-- **C167 is false** of the example verifier too. -/
theorem C167_violated_verifier (a : VAround) (P : Verifier.Provider) (wait : Nat) (w : World Verifier.VState) (req : Verifier.Req) (e : Err)
    (he : (Verifier.step a.env w { provider := P, wait, req }).1 = .error e) (hf : CallersFault e) : vstatus (vcall a P wait w req).1 = some 500 := by
  have : (vcall a P wait w req).1 = vreply (Verifier.step a.env w { provider := P, wait, req }).1 := rfl
  rw [this, he]
  cases e <;> first | exact hf.elim | rfl

/-! ### Lemmas for C168 -/

theorem queryPart_bare {uri : String} (h : Bare uri) (q : List Char) : queryPart (uri.toList ++ '?' :: q) = q.takeWhile (· ≠ '#') := by
  have : (uri.toList ++ '?' :: q).dropWhile (· ≠ '?') = '?' :: q := by
    rw [List.dropWhile_append_of_pos]
    · simp
    · intro c hc
      have : c ≠ '?' := by rintro rfl; exact h.1 hc
      simp [this]
  rw [queryPart, this]
  rfl

theorem takeWhile_all : ∀ {q : List Char}, '#' ∉ q → q.takeWhile (· ≠ '#') = q
  | [], _ => rfl
  | c :: q, h => by
    simp only [List.mem_cons, not_or] at h
    rw [List.takeWhile_cons_of_pos (by simpa using Ne.symm h.1), takeWhile_all h.2]

/-- An ASCII byte stands for its character. -/
theorem ascii_of_utf8 {s : List Char} {x : Char} (hx : x.toNat < 128) (h : UInt8.ofNat x.toNat ∈ utf8 s) : x ∈ s := by
  simp only [utf8, List.mem_flatMap] at h
  obtain ⟨c, hc, hm⟩ := h
  have big : ∀ n : Nat, 128 ≤ n → n < 256 → UInt8.ofNat x.toNat ≠ UInt8.ofNat n := by
    intro n h1 h2 e
    have := congrArg UInt8.toNat e
    simp only [UInt8.toNat_ofNat'] at this
    omega
  have : c.val.toNat = x.toNat := by
    simp only [String.utf8EncodeChar] at hm
    split at hm
    · simp only [List.mem_singleton] at hm
      have := congrArg UInt8.toNat hm
      simp only [UInt8.toNat_ofNat'] at this
      omega
    split at hm
    · simp only [List.mem_cons, List.not_mem_nil, or_false] at hm
      rcases hm with hm | hm <;> exact absurd hm (big _ (by omega) (by omega))
    split at hm
    · simp only [List.mem_cons, List.not_mem_nil, or_false] at hm
      rcases hm with hm | hm | hm <;> exact absurd hm (big _ (by omega) (by omega))
    · simp only [List.mem_cons, List.not_mem_nil, or_false] at hm
      rcases hm with hm | hm | hm | hm <;> exact absurd hm (big _ (by omega) (by omega))
  have : c = x := Char.ext (UInt32.toNat_inj.1 this)
  rwa [← this]

theorem decodeBytes_raw : ∀ {l : List UInt8}, 37 ∉ l → decodeBytes l = l
  | [], _ => rfl
  | b :: l, h => by
    simp only [List.mem_cons, not_or] at h
    rw [decodeBytes_cons (Ne.symm h.1), decodeBytes_raw h.2]

theorem formText_raw (lossy : List UInt8 → List Char) {s : List Char} (h1 : '%' ∉ s) (h2 : '+' ∉ s) : Wire.formText lossy (utf8 s) = String.ofList s := by
  have e : ∀ l : List UInt8, 43 ∉ l → l.map (fun b => if b = 43 then 32 else b) = l := by
    intro l hl
    induction l with
    | nil => rfl
    | cons x l ih =>
      simp only [List.mem_cons, not_or] at hl
      rw [List.map_cons, if_neg (Ne.symm hl.1), ih hl.2]
  have h37 : (37 : UInt8) ∉ utf8 s := fun h => h1 (ascii_of_utf8 (by decide) h)
  have h43 : (43 : UInt8) ∉ utf8 s := fun h => h2 (ascii_of_utf8 (by decide) h)
  simp only [Wire.formText]
  rw [e _ h43, decodeBytes_raw h37, utf8?_utf8]
  rfl

/-- A text that stands for itself in a query. -/
def Raw (s : String) : Prop := '&' ∉ s.toList ∧ '%' ∉ s.toList ∧ '+' ∉ s.toList

theorem parse_raw (lossy : List UInt8 → List Char) (l : List (String × String)) (h : ∀ p ∈ l, Raw p.1 ∧ '=' ∉ p.1.toList ∧ Raw p.2) :
    Wire.parseForm lossy (utf8 (joinWith '&' (l.map Wire.queryPair))) = l := by
  induction l with
  | nil => rfl
  | cons p l ih =>
    simp only [List.forall_mem_cons] at h
    have e1 : utf8 (Wire.queryPair p) = utf8 p.1.toList ++ 61 :: utf8 p.2.toList := by
      rw [Wire.queryPair, show p.1.toList ++ '=' :: p.2.toList = p.1.toList ++ (['='] ++ p.2.toList) from rfl, utf8_append, utf8_append, show utf8 ['='] = [61] by decide]
      rfl
    have hp : (38 : UInt8) ∉ utf8 (Wire.queryPair p) := by
      intro hm
      have := ascii_of_utf8 (x := '&') (by decide) hm
      simp only [Wire.queryPair, List.mem_append, List.mem_cons] at this
      rcases this with h1 | h1 | h1
      · exact h.1.1.1 h1
      · exact absurd h1 (by decide)
      · exact h.1.2.2.1 h1
    have hne : utf8 (Wire.queryPair p) ≠ [] := by rw [e1]; simp
    have h61 : (61 : UInt8) ∉ utf8 p.1.toList := fun hm => h.1.2.1 (ascii_of_utf8 (x := '=') (by decide) hm)
    have hr : (Wire.formText lossy (Wire.cutFirst (utf8 (Wire.queryPair p))).1, Wire.formText lossy (Wire.cutFirst (utf8 (Wire.queryPair p))).2) = p := by
      rw [e1, Wire.cutFirst_pair h61, formText_raw lossy h.1.1.2.1 h.1.1.2.2, formText_raw lossy h.1.2.2.2.1 h.1.2.2.2.2]
      simp [String.ofList_toList]
    cases l with
    | nil =>
      simp only [List.map_cons, List.map_nil, joinWith]
      rw [Wire.parseForm, Wire.cutAll_last hp]
      simp only [List.nil_append, List.filter_cons, hne, ne_eq, not_false_eq_true, decide_true, if_true, List.filter_nil, List.map_cons, List.map_nil, hr]
    | cons q l =>
      simp only [List.map_cons, joinWith] at ih ⊢
      rw [show Wire.queryPair p ++ '&' :: joinWith '&' (Wire.queryPair q :: l.map Wire.queryPair) =
          Wire.queryPair p ++ (['&'] ++ joinWith '&' (Wire.queryPair q :: l.map Wire.queryPair)) from rfl,
        utf8_append, utf8_append, show utf8 ['&'] = [38] by decide, List.singleton_append, Wire.parseForm, Wire.cutAll_more hp]
      simp only [List.nil_append, List.filter_cons, hne, ne_eq, not_false_eq_true, decide_true, if_true, List.map_cons, hr]
      have := ih h.2
      rw [Wire.parseForm] at this
      exact congrArg _ this

theorem encode_no_hash (s : List Char) : '#' ∉ percentEncode s := by
  intro h
  have := C42_encoding_is_query_text s _ h
  revert this
  decide

theorem received_encoded (lossy : List UInt8 → List Char) {uri : String} (h : Bare uri) (s : List Char) :
    received lossy (uri.toList ++ '?' :: percentEncode s) = Wire.parseForm lossy (Wire.enc s) := by
  rw [received, queryPart_bare h, takeWhile_all (encode_no_hash s), Wire.utf8_percentEncode]

theorem named_code : Wire.Named "code" := by unfold Wire.Named; decide +kernel
theorem raw_code : Raw "code" := by unfold Raw; decide
theorem named_error : Wire.Named "error" := by unfold Wire.Named; decide +kernel
theorem named_description : Wire.Named "error_description" := by unfold Wire.Named; decide +kernel

/-- The error members of a query, before they are encoded. -/
theorem errorQuery_plain {e : Err} {c : OidCode} {d : String} (he : oidErr e = .plain c d) (hd : Clean d.toList) :
    errorQuery e = percentEncode (joinWith '&' ([("error", c.text), ("error_description", d)].map Wire.queryPair)) := by
  rw [errorQuery, he, C38_error_serializes_partial c d hd]
  show urlEncode (.strct (oidMembers _)) = _
  rw [show oidMembers { error := c.text, description := d, state := none, cNonce := none, expiresIn := none } =
    [("error", c.text), ("error_description", d)].map fun p => (p.1, SVal.str p.2) from rfl, urlEncode, Wire.text_params]

/-! ### C168 -/

theorem UrlSafe.no {s : String} (h : UrlSafe s) {c : Char} (hc : ¬ (c.isAlphanum = true ∨ c = '-' ∨ c = '_')) : c ∉ s.toList := fun hm => hc (h c hm)

theorem UrlSafe.raw {s : String} (h : UrlSafe s) : Raw s := ⟨h.no (by decide), h.no (by decide), h.no (by decide)⟩

theorem asQuery_join (l : List (String × String)) : (asQuery l).toList = joinWith '&' (l.map Wire.queryPair) := by
  fun_induction asQuery l with
  | case1 => rfl
  | case2 k v => simp [joinWith, Wire.queryPair]
  | case3 k v l hl ih =>
    cases l with
    | nil => exact absurd rfl hl
    | cons p l => simp [joinWith, Wire.queryPair, ih]

theorem asQuery_no_hash {l : List (String × String)} (h : ∀ p ∈ l, '#' ∉ p.1.toList ∧ '#' ∉ p.2.toList) : '#' ∉ (asQuery l).toList := by
  fun_induction asQuery l with
  | case1 => simp
  | case2 k v => have := h (k, v) (by simp); simp [this]
  | case3 k v l hl ih =>
    simp only [List.forall_mem_cons] at h
    simp [h.1, ih h.2]

/-- What is found in the query of an address. -/
theorem received_query (lossy : List UInt8 → List Char) {uri : String} (h : Bare uri) (l : List (String × String))
    (hl : ∀ p ∈ l, (Raw p.1 ∧ '=' ∉ p.1.toList ∧ Raw p.2) ∧ '#' ∉ p.1.toList ∧ '#' ∉ p.2.toList) :
    received lossy (uri ++ "?" ++ asQuery l).toList = l := by
  rw [received, String.toList_append, String.toList_append, List.append_assoc, show "?".toList = ['?'] by decide, List.singleton_append, queryPart_bare h,
    takeWhile_all (asQuery_no_hash fun p hp => (hl p hp).2), asQuery_join, parse_raw lossy l fun p hp => (hl p hp).1]

/-- **C168** A code reaches the client: it finds exactly the code in the address it is called with, if its own address has no query (and the code is a token of the library, C40).
Missing: addresses with queries (`C168_violated_query_hides_code`). -/
theorem C168_code_arrives_partial (lossy : List UInt8 → List Char) {a : Around} {s : Site} {v : Visit} {uri c : String} (h : (serve a v.provider v.wait s v.http).1 = .code uri c)
    (hu : Bare uri) (hc : UrlSafe c) : ∃ url, location (serve a v.provider v.wait s v.http).1 = some url ∧ received lossy url = [("code", c)] := by
  refine ⟨_, by rw [h]; rfl, ?_⟩
  have e : uri.toList ++ "?code=".toList ++ c.toList = (uri ++ "?" ++ asQuery [("code", c)]).toList := by
    rw [show "?code=" = "?" ++ ("code" ++ "=") by decide]
    simp only [asQuery, String.toList_append, List.append_assoc]
  rw [e, received_query lossy hu]
  intro p hp
  rw [List.mem_singleton] at hp
  subst hp
  exact ⟨⟨raw_code, (by decide : '=' ∉ "code".toList), hc.raw⟩, (by decide : '#' ∉ "code".toList), hc.no (by decide)⟩

/-- **C168 is false** of addresses that have a query already, though such an address may be registered: the code is put behind a second question mark, and the client finds it nowhere but at the
end of its own last parameter. -/
theorem C168_violated_query_hides_code (lossy : List UInt8 → List Char) {a : Around} {s : Site} {v : Visit} {base c k x : String} {l : List (String × String)}
    (h : (serve a v.provider v.wait s v.http).1 = .code (base ++ "?" ++ asQuery (l ++ [(k, x)])) c) (hb : Bare base) (hc : UrlSafe c)
    (hl : ∀ p ∈ l ++ [(k, x)], UrlSafe p.1 ∧ UrlSafe p.2) :
    received lossy (base ++ "?" ++ asQuery (l ++ [(k, x)])).toList = l ++ [(k, x)] ∧
      ∃ url, location (serve a v.provider v.wait s v.http).1 = some url ∧ received lossy url = l ++ [(k, x ++ "?code=" ++ c)] := by
  have hq : ∀ p ∈ l ++ [(k, x)], (Raw p.1 ∧ '=' ∉ p.1.toList ∧ Raw p.2) ∧ '#' ∉ p.1.toList ∧ '#' ∉ p.2.toList :=
    fun p hp => ⟨⟨(hl p hp).1.raw, (hl p hp).1.no (by decide), (hl p hp).2.raw⟩, (hl p hp).1.no (by decide), (hl p hp).2.no (by decide)⟩
  refine ⟨received_query lossy hb _ hq, _, by rw [h]; rfl, ?_⟩
  have e : ∀ (l : List (String × String)) (y : String), asQuery (l ++ [(k, x ++ y)]) = asQuery (l ++ [(k, x)]) ++ y := by
    intro l y
    induction l with
    | nil => simp [asQuery, String.append_assoc]
    | cons p l ih =>
      obtain ⟨k', v'⟩ := p
      cases l with
      | nil => simp [asQuery, String.append_assoc]
      | cons q l => simp only [List.cons_append, asQuery] at ih ⊢; rw [ih]; simp [String.append_assoc]
  have e2 : (base ++ "?" ++ asQuery (l ++ [(k, x)])).toList ++ "?code=".toList ++ c.toList = (base ++ "?" ++ asQuery (l ++ [(k, x ++ ("?code=" ++ c))])).toList := by
    rw [e]; simp only [String.toList_append, List.append_assoc]
  rw [e2, received_query lossy hb, String.append_assoc]
  intro p hp
  rcases List.mem_append.1 hp with hp | hp
  · exact hq p (List.mem_append.2 (.inl hp))
  · rw [List.mem_singleton] at hp
    subst hp
    have h0 := hq (k, x) (List.mem_append.2 (.inr (List.mem_singleton.2 rfl)))
    have hc1 := hc.raw
    have hno : ∀ z : Char, z ∉ x.toList → z ∉ "?code=".toList → z ∉ c.toList → z ∉ (x ++ ("?code=" ++ c)).toList := by
      intro z h1 h2 h3 hm
      simp only [String.toList_append, List.mem_append] at hm
      rcases hm with hm | hm | hm
      · exact h1 hm
      · exact h2 hm
      · exact h3 hm
    exact ⟨⟨h0.1.1, h0.1.2.1, hno _ h0.1.2.2.1 (by decide) hc1.1, hno _ h0.1.2.2.2.1 (by decide) hc1.2.1, hno _ h0.1.2.2.2.2 (by decide) hc1.2.2⟩, h0.2.1,
      hno _ h0.2.2 (by decide) (hc.no (by decide))⟩

/-- **C168** An error reaches the client, with its description, if the client's own address has no query and the description has no ampersand and nothing that JSON escapes. -/
theorem C168_error_arrives_partial (lossy : List UInt8 → List Char) {a : Around} {s : Site} {v : Visit} {uri : String} {e : Err} {c : String} {d : String}
    (h : (serve a v.provider v.wait s v.http).1 = .denied uri e) (hu : Bare uri) (he : Tells e c d) (hd : Clean d.toList) (hamp : '&' ∉ d.toList) :
    ∃ url, location (serve a v.provider v.wait s v.http).1 = some url ∧ received lossy url = [("error", c), ("error_description", d)] := by
  obtain ⟨c, hc, rfl⟩ : ∃ c', oidErr e = .plain c' d ∧ c'.text = c := by cases he <;> exact ⟨_, rfl, rfl⟩
  refine ⟨_, by rw [h]; rfl, ?_⟩
  rw [List.append_assoc, List.singleton_append, errorQuery_plain hc hd, received_encoded lossy hu, Wire.parse_query]
  intro p hp
  simp only [List.mem_cons, List.not_mem_nil, or_false] at hp
  rcases hp with rfl | rfl
  · have : ∀ c : OidCode, '&' ∉ c.text.toList := by intro c; cases c <;> decide
    exact ⟨named_error, this c⟩
  · exact ⟨named_description, hamp⟩

/-- **C168 is false** of errors that quote the request: the scope of a request can put parameters of its own into the redirect that refuses it, a `code` for one. -/
theorem C168_violated_error_brings_code (lossy : List UInt8 → List Char) {a : Around} {s : Site} {v : Visit} {uri x y : String}
    (h : (serve a v.provider v.wait s v.http).1 = .denied uri (.invalidScope ("scope item " ++ (x ++ "&code=" ++ y) ++ " is unsupported"))) (hu : Bare uri)
    (hx : UrlSafe x) (hy : UrlSafe y) :
    ∃ url, location (serve a v.provider v.wait s v.http).1 = some url ∧
      received lossy url = [("error", "invalid_scope"), ("error_description", "scope item " ++ x), ("code", y ++ " is unsupported")] := by
  refine ⟨_, by rw [h]; rfl, ?_⟩
  have e : "scope item " ++ (x ++ "&code=" ++ y) ++ " is unsupported" = ("scope item " ++ x) ++ ("&" ++ ("code" ++ ("=" ++ (y ++ " is unsupported")))) := by
    rw [show "&code=" = "&" ++ ("code" ++ "=") by decide]
    simp only [String.append_assoc]
  have safe_clean : ∀ z : String, UrlSafe z → Clean z.toList := by
    intro z hz c hc
    have := hz c hc
    refine ⟨?_, ?_, ?_⟩
    · rintro rfl; exact absurd this (by decide)
    · rintro rfl; exact absurd this (by decide)
    · intro h32
      rcases this with h | rfl | rfl
      · simp only [Char.isAlphanum, Char.isAlpha, Char.isUpper, Char.isLower, Char.isDigit, Bool.or_eq_true, Bool.and_eq_true, decide_eq_true_eq, ge_iff_le, UInt32.le_iff_toNat_le] at h
        have e1 : ('A'.val).toNat = 65 := rfl
        have e2 : ('a'.val).toNat = 97 := rfl
        have e3 : ('0'.val).toNat = 48 := rfl
        have e4 : c.toNat = c.val.toNat := rfl
        omega
      · exact absurd h32 (by decide)
      · exact absurd h32 (by decide)
  have hd : Clean ("scope item " ++ (x ++ "&code=" ++ y) ++ " is unsupported").toList := by
    simp only [String.toList_append]
    intro c hc
    simp only [List.mem_append] at hc
    have k1 : Clean "scope item ".toList := by unfold Clean; decide
    have k2 : Clean "&code=".toList := by unfold Clean; decide
    have k3 : Clean " is unsupported".toList := by unfold Clean; decide
    rcases hc with (hc | (hc | hc) | hc) | hc
    · exact k1 c hc
    · exact safe_clean x hx c hc
    · exact k2 c hc
    · exact safe_clean y hy c hc
    · exact k3 c hc
  rw [List.append_assoc, List.singleton_append, errorQuery_plain (c := .invalidScope) rfl hd, received_encoded lossy hu, e]
  have := Wire.params_injected [("error", "invalid_scope")] "error_description" ("scope item " ++ x) "code" (y ++ " is unsupported")
  show Wire.parseForm lossy (Wire.enc (joinWith '&' (([("error", "invalid_scope")] ++
    [("error_description", "scope item " ++ x ++ ("&" ++ ("code" ++ ("=" ++ (y ++ " is unsupported")))))]).map Wire.queryPair))) = _
  rw [this, Wire.parse_query]
  · rfl
  · have hno : ∀ a b : String, '&' ∉ a.toList → '&' ∉ b.toList → '&' ∉ (a ++ b).toList := by
      intro a b h1 h2 hm
      simp only [String.toList_append, List.mem_append] at hm
      exact hm.elim h1 h2
    intro p hp
    simp only [List.cons_append, List.nil_append, List.mem_cons, List.not_mem_nil, or_false] at hp
    rcases hp with rfl | rfl | rfl
    · exact ⟨named_error, by decide⟩
    · exact ⟨named_description, hno _ _ (by decide) hx.raw.1⟩
    · exact ⟨named_code, hno _ _ hy.raw.1 (by decide)⟩

/-- An error whose text has a quotation mark cannot be written. -/
theorem errorQuery_quote {d : String} {p rest : List Char} {c : Char} (hd : d.toList = p ++ '"' :: c :: rest) (hp : Clean p) (hc : c.isAlphanum = true) :
    errorQuery (.invalidScope d) = [] := by
  obtain ⟨n, hn, hj⟩ := display_parse .invalidScope d
  have ht : tailText d = p ++ '"' :: (c :: (rest ++ ['"', '}'])) := by
    simp only [tailText, hd, List.append_assoc, List.cons_append]
  rw [ht, lexStr_clean _ _ hp _ (by simp only [List.length_append, List.length_cons]; omega)] at hj
  have hws : isWs c = false := by
    cases hw : isWs c with
    | false => rfl
    | true =>
      simp only [isWs, Bool.or_eq_true, decide_eq_true_eq] at hw
      rcases hw with ((rfl | rfl) | rfl) | rfl <;> exact absurd hc (by decide)
  have hc1 : c ≠ ',' := by rintro rfl; exact absurd hc (by decide)
  have hc2 : c ≠ '}' := by rintro rfl; exact absurd hc (by decide)
  have hs : skipWs (c :: (rest ++ ['"', '}'])) = c :: (rest ++ ['"', '}']) := by rw [skipWs, hws]; rfl
  simp only [hs] at hj
  have hj : parseJson (OidErr.plain .invalidScope d).display = none := by
    rw [hj]
    split
    · next e => exact absurd (List.cons.inj e).1 hc1
    · next e => exact absurd (List.cons.inj e).1 hc2
    · rfl
  have hf : (OidErr.plain .invalidScope d).fields = none := by rw [OidErr.fields, OidFields.ofText, hj]
  rw [errorQuery, oidErr, hf]

/-- **C168 is false** of scopes with a quotation mark: the client is called with nothing at all. -/
theorem C168_violated_quote_loses_error (lossy : List UInt8 → List Char) {a : Around} {s : Site} {v : Visit} {uri item : String} {x y : List Char} {c : Char}
    (h : (serve a v.provider v.wait s v.http).1 = .denied uri (.invalidScope ("scope item " ++ item ++ " is unsupported"))) (hu : Bare uri)
    (hi : item.toList = x ++ '"' :: c :: y) (hx : Clean x) (hc : c.isAlphanum = true) :
    ∃ url, location (serve a v.provider v.wait s v.http).1 = some url ∧ received lossy url = [] := by
  refine ⟨_, by rw [h]; rfl, ?_⟩
  have hq : errorQuery (.invalidScope ("scope item " ++ item ++ " is unsupported")) = [] := by
    refine errorQuery_quote (p := "scope item ".toList ++ x) (rest := y ++ " is unsupported".toList) (c := c) ?_ ?_ hc
    · simp only [String.toList_append, hi, List.append_assoc, List.cons_append]
    · intro z hz
      have k1 : Clean "scope item ".toList := by unfold Clean; decide
      rcases List.mem_append.1 hz with hz | hz
      · exact k1 z hz
      · exact hx z hz
  rw [List.append_assoc, List.singleton_append, hq, received, queryPart_bare hu]
  rfl

end Verif.Server
