import Verif.Wire.RequestLemmas
/-!
# C118: authorization requests as text
-/
namespace Verif.Wire

/-! ### Specification -/

/-- A text, if given, is plain. -/
def PlainOpt : Option String → Prop
  | none => True
  | some s => PlainText s.toList

/-- A request made of plain texts, whose details can be put in words and are made of plain texts too. -/
structure RequestObject.Plain (o : RequestObject) : Prop where
  credentialIssuer : PlainText o.credentialIssuer.toList
  clientId : PlainText o.clientId.toList
  redirectUri : PlainOpt o.redirectUri
  state : PlainOpt o.state
  codeChallenge : PlainText o.codeChallenge.toList
  details : ∀ l, o.authorizationDetails = some l → ∀ d ∈ l, d.Sound ∧ PlainJson (writeDetail d)
  scope : PlainOpt o.scope
  resource : PlainOpt o.resource
  subjectId : PlainText o.subjectId.toList
  walletIssuer : PlainOpt o.walletIssuer
  userHint : PlainOpt o.userHint
  issuerState : PlainOpt o.issuerState

/-- The parameters an authorization request is said to have. -/
def KnownParam (k : String) : Prop :=
  k ∈ ["credential_issuer", "response_type", "client_id", "redirect_uri", "state", "code_challenge", "code_challenge_method", "authorization_details", "scope", "resource",
    "subject_id", "wallet_issuer", "user_hint", "issuer_state", "request_uri"]

/-! ### Characters of an encoded text -/

theorem mem_encode_of_mem {c : Char} (hc : c = '=' ∨ c = '&') {s : List Char} (h : c ∈ s) : c ∈ percentEncode s := by
  obtain ⟨a, b, rfl⟩ := List.append_of_mem h
  rw [show a ++ c :: b = a ++ ([c] ++ b) by simp, percentEncode_append, percentEncode_append]
  have : percentEncode [c] = [c] := by rcases hc with rfl | rfl <;> decide
  simp [this]

theorem amp_of_utf8 {s : List Char} (h : (38 : UInt8) ∈ utf8 s) : '&' ∈ s := by
  simp only [utf8, List.mem_flatMap] at h
  obtain ⟨c, hc, hm⟩ := h
  have big : ∀ n : Nat, 128 ≤ n → n < 256 → (38 : UInt8) ≠ UInt8.ofNat n := by
    intro n h1 h2 e
    have := congrArg UInt8.toNat e
    simp only [UInt8.toNat_ofNat'] at this
    have : 38 = n % 256 := this
    omega
  have : c.val.toNat = 38 := by
    simp only [String.utf8EncodeChar] at hm
    split at hm
    · simp only [List.mem_singleton] at hm
      have := congrArg UInt8.toNat hm
      simp only [UInt8.toNat_ofNat'] at this
      have : 38 = c.val.toNat % 256 := this
      omega
    split at hm
    · simp only [List.mem_cons, List.not_mem_nil, or_false] at hm
      rcases hm with hm | hm <;> exact absurd hm (big _ (by omega) (by omega))
    split at hm
    · simp only [List.mem_cons, List.not_mem_nil, or_false] at hm
      rcases hm with hm | hm | hm <;> exact absurd hm (big _ (by omega) (by omega))
    · simp only [List.mem_cons, List.not_mem_nil, or_false] at hm
      rcases hm with hm | hm | hm | hm <;> exact absurd hm (big _ (by omega) (by omega))
  have : c = '&' := Char.ext (UInt32.toNat_inj.1 this)
  rwa [← this]

theorem amp_of_encode {s : List Char} (h : '&' ∈ percentEncode s) : '&' ∈ s := by
  refine amp_of_utf8 ?_
  simp only [percentEncode, asciiText, List.mem_map, List.mem_flatMap] at h
  obtain ⟨x, ⟨b, hb, hx⟩, he⟩ := h
  have key : ∀ b : Fin 256, ∀ x ∈ encodeByte (UInt8.ofFin b), Char.ofNat x.toNat = '&' → (UInt8.ofFin b) = 38 := by decide +kernel
  have := key b.toFin x hx he
  rw [← show b = 38 from this]
  exact hb

/-! ### Texts of requests -/

theorem plain_const {s : String} (h : (s.toList.all fun c => c != '"' && c != '\\' && decide (32 ≤ c.toNat) && c != '=' && c != '&' && c != '[' && c != '{' &&
    c != ']' && c != '}') = true) : PlainText s.toList := by
  simp only [List.all_eq_true, Bool.and_eq_true, bne_iff_ne, decide_eq_true_eq] at h
  refine ⟨fun c hc => ?_, fun hc => ?_, fun hc => ?_, fun c hc => ?_, fun c hc => ?_⟩
  · have := h c hc; exact ⟨this.1.1.1.1.1.1.1.1, this.1.1.1.1.1.1.1.2, by have := this.1.1.1.1.1.1.2; omega⟩
  · exact (h _ hc).1.1.1.1.1.2 rfl
  · exact (h _ hc).1.1.1.1.2 rfl
  · have := h c (List.mem_of_mem_head? (by rw [hc]; rfl)); exact ⟨this.1.1.1.2, this.1.1.2⟩
  · have := h c (List.mem_of_getLast? hc); exact ⟨this.1.2, this.2⟩

theorem plain_opt {k : String} (hk : PlainText k.toList) {o : Option String} (h : PlainOpt o) : PlainMembers (opt k .str o) := by
  cases o with
  | none => simp [opt, PlainMembers]
  | some a => simp only [opt, PlainMembers, PlainJson, and_true]; exact ⟨hk, h⟩

theorem plain_written {o : RequestObject} (h : o.Plain) : PlainMembers (writeObject o) := by
  simp only [writeObject, plainMembers_append]
  refine ⟨⟨⟨⟨⟨⟨⟨⟨⟨⟨⟨?_, ?_⟩, plain_opt (plain_const (by decide)) h.redirectUri⟩, plain_opt (plain_const (by decide)) h.state⟩, ?_⟩, ?_⟩, plain_opt (plain_const (by decide)) h.scope⟩,
    plain_opt (plain_const (by decide)) h.resource⟩, ?_⟩, plain_opt (plain_const (by decide)) h.walletIssuer⟩, plain_opt (plain_const (by decide)) h.userHint⟩,
    plain_opt (plain_const (by decide)) h.issuerState⟩
  · split
    · simp [PlainMembers]
    · simp only [PlainMembers, PlainJson, and_true]; exact ⟨plain_const (by decide), h.credentialIssuer⟩
  · simp only [PlainMembers, PlainJson, and_true]
    exact ⟨plain_const (by decide), by cases o.responseType <;> exact plain_const (by decide), plain_const (by decide), h.clientId⟩
  · simp only [PlainMembers, PlainJson, and_true]
    exact ⟨plain_const (by decide), h.codeChallenge, plain_const (by decide), plain_const (by decide)⟩
  · cases hd : o.authorizationDetails with
    | none => simp [opt, PlainMembers]
    | some l =>
      simp only [opt, PlainMembers, writeVec, PlainJson, and_true]
      refine ⟨plain_const (by decide), plainElems_iff.2 fun j hj => ?_⟩
      obtain ⟨d, hm, rfl⟩ := List.mem_map.1 hj
      exact (h.details l hd d hm).2
  · simp only [PlainMembers, PlainJson, and_true]; exact ⟨plain_const (by decide), h.subjectId⟩

/-- Members that are texts or lists. -/
def TextOrList (m : List (String × Json)) : Prop := ∀ p ∈ m, (∃ s, p.2 = .str s) ∨ ∃ l, p.2 = .arr l

theorem textOrList_written (o : RequestObject) : TextOrList (writeObject o) := by
  have ho : ∀ (k : String) (o : Option String), ∀ p ∈ opt k .str o, (∃ s, p.2 = .str s) ∨ ∃ l, p.2 = .arr l := by
    intro k o p hp
    cases o with
    | none => cases hp
    | some a => simp only [opt, List.mem_singleton] at hp; subst hp; exact .inl ⟨_, rfl⟩
  intro p hp
  simp only [writeObject, List.mem_append] at hp
  rcases hp with ((((((((((hp | hp) | hp) | hp) | hp) | hp) | hp) | hp) | hp) | hp) | hp) | hp
  all_goals first
    | exact ho _ _ p hp
    | (simp only [List.mem_cons, List.not_mem_nil, or_false] at hp; rcases hp with rfl | rfl <;> exact .inl ⟨_, rfl⟩)
    | (simp only [List.mem_cons, List.not_mem_nil, or_false] at hp; subst hp; exact .inl ⟨_, rfl⟩)
    | skip
  · split at hp
    · cases hp
    · simp only [List.mem_singleton] at hp; subst hp; exact .inl ⟨_, rfl⟩
  · cases hd : o.authorizationDetails with
    | none => rw [hd] at hp; cases hp
    | some l => rw [hd] at hp; simp only [opt, List.mem_singleton] at hp; subst hp; exact .inr ⟨_, rfl⟩

theorem toSm_append (a b : List (String × Json)) : toSm (a ++ b) = toSm a ++ toSm b := by
  induction a with
  | nil => rfl
  | cons p l ih => obtain ⟨k, j⟩ := p; simp [toSm, ih]

theorem decode_plain (lossy : List UInt8 → List Char) {m : List (String × Json)} (hne : m ≠ []) (hp : PlainMembers m) (ht : TextOrList m) :
    urlDecode lossy (urlEncode (.strct (toSm m))) = some (.obj m) := by
  have hne' : toSm m ≠ [] := by cases m with | nil => exact absurd rfl hne | cons p l => obtain ⟨k, j⟩ := p; simp [toSm]
  rw [C43_query_is_json_partial lossy (toSm m) hne' (toSm_plain m hp).1]
  · simp [SVal.json, (toSm_plain m hp).2]
  · intro q hq
    have : ∀ m : List (String × Json), TextOrList m → ∀ q ∈ toSm m, (∃ s, q.2 = .str s) ∨ (∃ l, q.2 = .seq l) ∨ (∃ l, q.2 = .strct l) ∨ ∃ l, q.2 = .map l := by
      intro m
      induction m with
      | nil => intro _ q hq; cases hq
      | cons p l ih =>
        obtain ⟨k, j⟩ := p
        intro ht q hq
        simp only [toSm, List.mem_cons] at hq
        rcases hq with rfl | hq
        · rcases ht _ (.head _) with ⟨s, hs⟩ | ⟨l', hl⟩
          · simp only at hs; subst hs; exact .inl ⟨s, rfl⟩
          · simp only at hl; subst hl; exact .inr (.inl ⟨_, rfl⟩)
        · exact ih (fun p hp => ht p (.tail _ hp)) q hq
    exact this m ht q hq

theorem has_delims {m : List (String × Json)} (hp : PlainMembers m) (h2 : 2 ≤ m.length) :
    '=' ∈ urlEncode (.strct (toSm m)) ∧ '&' ∈ urlEncode (.strct (toSm m)) := by
  rw [urlEncode, ser_top _ (toSm_plain m hp).1]
  match m, h2 with
  | (k, j) :: (k', j') :: l, _ =>
    constructor
    · exact mem_encode_of_mem (.inl rfl) (by simp [toSm, joinWith, paramPair])
    · exact mem_encode_of_mem (.inr rfl) (by simp [toSm, joinWith, paramPair])

theorem fromStr_plain (lossy : List UInt8 → List Char) {m : List (String × Json)} (hp : PlainMembers m) (ht : TextOrList m) (h2 : 2 ≤ m.length) :
    fromStr lossy (urlEncode (.strct (toSm m))) = readRequestMembers m {} "" := by
  rw [fromStr, if_pos (has_delims hp h2), decode_plain lossy (by rintro rfl; simp at h2) hp ht]
  rfl

theorem written_length (o : RequestObject) : 2 ≤ (writeObject o).length := by
  simp only [writeObject, List.length_append, List.length_cons, List.length_nil]
  omega

theorem unknown_fails {l : List (String × Json)} {k : String} {j : Json} (hk : ¬ KnownParam k) (h : (k, j) ∈ l) : ∀ obj uri, readRequestMembers l obj uri = none := by
  simp only [KnownParam, List.mem_cons, List.not_mem_nil, or_false, not_or] at hk
  induction l with
  | nil => cases h
  | cons p l ih =>
    intro obj uri
    obtain ⟨k', j'⟩ := p
    rcases List.mem_cons.1 h with e | h
    · cases e
      simp only [readRequestMembers, hk, if_false]
    · have ih := ih h
      have hb : ∀ {α : Type} (o : Option α), (o.bind fun _ => (none : Option AuthorizationRequest)) = none := by intro α o; cases o <;> rfl
      simp only [readRequestMembers, ih, hb, ite_self]

/-! ### Theorems -/

/-- C118: An authorization request made of plain texts, written as a query string, is read as the same request. -/
theorem C118_request_round_trip_partial (lossy : List UInt8 → List Char) (o : RequestObject) (h : o.Plain) :
    fromStr lossy (display (.object o)) = some (.object o) := by
  rw [display, writeRequest, fromStr_plain lossy (plain_written h) (textOrList_written o) (written_length o)]
  exact read_written o (fun l hl d hd => (h.details l hl d hd).1) ""

/-- C118 fails for requests by reference: a request that refers to one pushed before is never read back from its own text. -/
theorem C118_uri_unreadable (lossy : List UInt8 → List Char) (u : String) (h : '&' ∉ u.toList) : fromStr lossy (display (.uri u)) = none := by
  have e : display (.uri u) = percentEncode ("request_uri=".toList ++ u.toList) := by
    rw [display, urlEncode, writeRequest, toSm, toSm, toS, ser_top_values _ (by intro p hp; simp only [List.mem_singleton] at hp; subst hp; exact .inr ⟨_, rfl⟩)]
    simp [joinWith, paramPair, paramText]
  have hamp : '&' ∉ display (.uri u) := by
    rw [e]
    intro hm
    have := amp_of_encode hm
    simp only [List.mem_append] at this
    rcases this with hm | hm
    · revert hm; decide
    · exact h hm
  rw [fromStr, if_neg (fun hc => hamp hc.2), e, percentEncode_append]
  have : percentEncode "request_uri=".toList = 'r' :: "equest_uri=".toList := by decide
  rw [this]
  have : ∀ n l, value (n + 1) ('r' :: l) = none := by intro n l; rfl
  simp only [parseJson, List.cons_append, List.length_cons]
  rw [show ∀ n, 2 * (n + 1) + 2 = (2 * n + 3) + 1 by intro n; omega, this]
  rfl

/-- C118 fails for requests by reference: only a text with both an equals sign and an ampersand, so never a single parameter nor JSON without them, is read as one. -/
theorem C118_uri_needs_another_parameter (lossy : List UInt8 → List Char) (s : List Char) (u : String) (h : fromStr lossy s = some (.uri u)) : '=' ∈ s ∧ '&' ∈ s := by
  unfold fromStr at h
  split at h
  · assumption
  · cases hj : (parseJson s).bind readObject with
    | none => rw [hj] at h; cases h
    | some o => rw [hj] at h; cases h

/-- C118 fails for requests by reference as JSON: the object that carries just the reference is read as an empty request, without an error. -/
theorem C118_json_uri_becomes_empty_request (lossy : List UInt8 → List Char) (u : String) (hc : Clean u.toList) (h : '&' ∉ u.toList) :
    fromStr lossy (Json.obj [("request_uri", .str u)]).chars = some (.object {}) := by
  have hamp : '&' ∉ (Json.obj [("request_uri", .str u)]).chars := by
    simp only [Json.chars, Json.charsObj, quoteChars_clean hc]
    have : '&' ∉ quoteChars "request_uri".toList := by decide
    simp_all
  rw [fromStr, if_neg (fun hc => hamp hc.2), parseJson_chars _ (by simp [Json.WF, Json.WFObj])]
  rfl

/-- C118 fails for further parameters, which an authorization server must ignore: a request that carries one is refused. -/
theorem C118_unknown_parameter_refused (lossy : List UInt8 → List Char) (s : List Char) (m : List (String × Json)) (k : String) (j : Json)
    (hs : '=' ∈ s ∧ '&' ∈ s) (hd : urlDecode lossy s = some (.obj m)) (hm : (k, j) ∈ m) (hk : ¬ KnownParam k) : fromStr lossy s = none := by
  rw [fromStr, if_pos hs, hd]
  exact unknown_fails hk hm _ _

/-- C118 fails for further parameters: any plain request, with any plain parameter of another name added. -/
theorem C118_extended_request_refused (lossy : List UInt8 → List Char) (o : RequestObject) (h : o.Plain) (k v : String) (hk : ¬ KnownParam k)
    (pk : PlainText k.toList) (pv : PlainText v.toList) :
    fromStr lossy (urlEncode (.strct (toSm (writeRequest (.object o)) ++ [(k, .str v)]))) = none := by
  have e : toSm (writeRequest (.object o)) ++ [(k, .str v)] = toSm (writeObject o ++ [(k, .str v)]) := by simp [toSm_append, toSm, toS, writeRequest]
  rw [e, fromStr_plain lossy]
  · exact unknown_fails (j := .str v) hk (by simp) _ _
  · rw [plainMembers_append]; exact ⟨plain_written h, by simp only [PlainMembers, PlainJson, and_true]; exact ⟨pk, pv⟩⟩
  · intro p hp
    rcases List.mem_append.1 hp with hp | hp
    · exact textOrList_written o p hp
    · simp only [List.mem_singleton] at hp; subst hp; exact .inl ⟨_, rfl⟩
  · have := written_length o; simp only [List.length_append]; omega

/-- C118 fails for repeated parameters, which must not occur: another client put in front of a request is accepted and overruled. -/
theorem C118_repeated_parameter_accepted (lossy : List UInt8 → List Char) (o : RequestObject) (h : o.Plain) (x : String) (px : PlainText x.toList) :
    fromStr lossy (urlEncode (.strct (("client_id", .str x) :: toSm (writeRequest (.object o))))) = some (.object o) := by
  have e : ("client_id", SVal.str x) :: toSm (writeRequest (.object o)) = toSm (("client_id", .str x) :: writeObject o) := rfl
  rw [e, fromStr_plain lossy]
  · have : readRequestMembers (("client_id", .str x) :: writeObject o) {} "" = readRequestMembers (writeObject o) { clientId := x } "" := by
      simp [readRequestMembers, readStr]
    rw [this]
    exact read_written o (fun l hl d hd => (h.details l hl d hd).1) x
  · simp only [PlainMembers, PlainJson]; exact ⟨plain_const (by decide), px, plain_written h⟩
  · intro p hp
    rcases List.mem_cons.1 hp with rfl | hp
    · exact .inl ⟨_, rfl⟩
    · exact textOrList_written o p hp
  · have := written_length o; simp only [List.length_cons]; omega

/-- C118 fails for JSON lists: the empty one is read as a request. -/
theorem C118_empty_list_is_request (lossy : List UInt8 → List Char) : fromStr lossy "[]".toList = some (.object {}) := by
  rw [fromStr, if_neg (by decide)]
  rfl

/-! ### Examples -/

/-- A request for a narrowed credential. -/
def sample : RequestObject where
  clientId := "http://wallet.example/cb"
  redirectUri := some "http://localhost:3000/callback"
  codeChallenge := "E9Melhoa2OwvFrEMTJguCHaoeK1t8URWbuGJSstw-cM"
  authorizationDetails := some [{ credential := .configurationId "EmployeeID_JWT" (some (.w3c { credentialSubject := some [("address", address)] })) }]
  subjectId := "normal_user"

theorem sample_plain : sample.Plain where
  credentialIssuer := plain_const (by decide)
  clientId := plain_const (by decide)
  redirectUri := plain_const (by decide)
  state := trivial
  codeChallenge := plain_const (by decide)
  details := by
    intro l hl d hd
    simp only [sample, Option.some.injEq] at hl
    subst hl
    simp only [List.mem_singleton] at hd
    subst hd
    refine ⟨by simp [AuthorizationDetail.Sound, ProfileClaims.Sound, CredentialDefinition.Sound, SoundClaims, SoundDict, address, Claim.Sound, SoundMembers, Reserved], ?_⟩
    simp only [writeDetail, writeCredential, writeProfileClaims, writeDefn, opt, List.nil_append, List.append_nil, writeDict, writeMembers, address, writeClaim, writeDefinition, writeVec,
      List.map, writeDisplay, ValueType.name, List.cons_append, PlainJson, PlainMembers, PlainElems, and_true, true_and]
    and_intros <;> exact plain_const (by decide)
  scope := trivial
  resource := trivial
  subjectId := plain_const (by decide)
  walletIssuer := trivial
  userHint := trivial
  issuerState := trivial

example (lossy : List UInt8 → List Char) : fromStr lossy (display (.object sample)) = some (.object sample) := C118_request_round_trip_partial lossy _ sample_plain

example : ¬ KnownParam "prompt" ∧ PlainText "prompt".toList ∧ PlainText "login".toList := ⟨by simp [KnownParam], plain_const (by decide), plain_const (by decide)⟩

example : '&' ∉ "urn:ietf:params:oauth:request_uri:6esc_11ACC5bwc014ltc14eY22c".toList := by decide

/-- A reference is read where another parameter comes with it. -/
example (lossy : List UInt8 → List Char) : fromStr lossy "client_id=c&request_uri=u".toList = some (.uri "u") := by
  have : "client_id=c&request_uri=u".toList = urlEncode (.strct (toSm [("client_id", .str "c"), ("request_uri", .str "u")])) := by
    rw [urlEncode, ser_top_values _ (by intro p hp; simp only [toSm, toS, List.mem_cons, List.not_mem_nil, or_false] at hp; rcases hp with rfl | rfl <;> exact .inr ⟨_, rfl⟩)]
    decide
  rw [this, fromStr_plain lossy]
  · rfl
  · simp only [PlainMembers, PlainJson, and_true]
    exact ⟨plain_const (by decide), plain_const (by decide), plain_const (by decide), plain_const (by decide)⟩
  · intro p hp
    simp only [List.mem_cons, List.not_mem_nil, or_false] at hp
    rcases hp with rfl | rfl <;> exact .inl ⟨_, rfl⟩
  · decide

end Verif.Wire
