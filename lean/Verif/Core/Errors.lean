import Verif.Core.JsonParse
/-!
# OAuth errors as JSON

/repo/crates/openid/src/error.rs.
-/
namespace Verif

/-- The codes of `Error` (error.rs 18-167), apart from `InvalidProof` and `IssuancePending`. -/
inductive OidCode
  | invalidRequest | invalidClient | invalidGrant | unauthorizedClient | unsupportedGrantType | invalidScope | invalidAuthorizationDetails
  | accessDenied | unsupportedResponseType | serverError | temporarilyUnavailable | invalidCredentialRequest | unsupportedCredentialType
  | unsupportedCredentialFormat | invalidEncryptionParameters | invalidTransactionId | vpFormatsNotSupported
  | invalidPresentationDefinitionUri | invalidPresentationDefinitionReference | walletUnavailable
  deriving DecidableEq, Repr

/-- The codes as they appear in the `#[error(..)]` attributes (error.rs 23-166). -/
def OidCode.text : OidCode → String
  | .invalidRequest => "invalid_request"
  | .invalidClient => "invalid_client"
  | .invalidGrant => "invalid_grant"
  | .unauthorizedClient => "unauthorized_client"
  | .unsupportedGrantType => "unsupported_grant_type"
  | .invalidScope => "invalid_scope"
  | .invalidAuthorizationDetails => "invalid_authorization_details"
  | .accessDenied => "access_denied"
  | .unsupportedResponseType => "unsupported_response_type"
  | .serverError => "server_error"
  | .temporarilyUnavailable => "temporarily_unavailable"
  | .invalidCredentialRequest => "invalid_credential_request"
  | .unsupportedCredentialType => "unsupported_credential_type"
  | .unsupportedCredentialFormat => "unsupported_credential_format"
  | .invalidEncryptionParameters => "invalid_encryption_parameters"
  | .invalidTransactionId => "invalid_transaction_id"
  | .vpFormatsNotSupported => "vp_formats_not_supported"
  | .invalidPresentationDefinitionUri => "invalid_presentation_definition_uri"
  | .invalidPresentationDefinitionReference => "invalid_presentation_definition_reference"
  | .walletUnavailable => "wallet_unavailable"

/-- `Error` (error.rs 18-167). -/
inductive OidErr
  | plain (code : OidCode) (description : String)
  | invalidProof (hint cNonce : String) (expiresIn : Int)
  | issuancePending (interval : Int)
  deriving DecidableEq, Repr

/-- `Display` (the `#[error(..)]` format strings of error.rs 23-166): the texts are copied in unescaped. -/
def OidErr.display : OidErr → List Char
  | .plain c d => "{\"error\": \"".toList ++ c.text.toList ++ "\", \"error_description\": \"".toList ++ d.toList ++ "\"}".toList
  | .invalidProof h n e =>
    "{\"error\": \"invalid_proof\", \"error_description\": \"".toList ++ h.toList ++ "\", \"c_nonce\": \"".toList ++ n.toList ++
      "\", \"c_nonce_expires_in\": ".toList ++ intText e ++ "}".toList
  | .issuancePending i => "{\"error\": \"issuance_pending\", \"interval\": ".toList ++ intText i ++ "}".toList

/-- `to_json` (error.rs 204-206): `Null` if the text is not JSON. -/
def OidErr.toJson (e : OidErr) : Json := (parseJson e.display).getD .null

/-- Looking up a member of an object. `serde_json` keeps the last of several members with the same name. -/
def Json.member? : Json → String → Option Json
  | .obj ms, k => (ms.reverse.find? (·.1 == k)).map (·.2)
  | _, _ => none

/-- `OidError` (error.rs 169-188); `state` is never set by this module. -/
structure OidFields where
  error : String
  description : String
  state : Option String
  cNonce : Option String
  expiresIn : Option String
  deriving DecidableEq, Repr

/-- Derived `Deserialize` of a `String` field. /repo/crates/openid/src/error.rs 194. -/
def reqString (ms : List (String × Json)) (k : String) : Option String :=
  match ms.filter (·.1 == k) with
  | [(_, .str s)] => some s
  | _ => none

/-- Derived `Deserialize` of an `Option<String>` field: absent, null or a string, at most once. /repo/crates/openid/src/error.rs 194. -/
def optString (ms : List (String × Json)) (k : String) : Option (Option String) :=
  match ms.filter (·.1 == k) with
  | [] => some none
  | [(_, .null)] => some none
  | [(_, .str s)] => some (some s)
  | _ => none

/-- Derived `Deserialize` of an `Option<i64>` field. Simplification: the range of `i64` is not checked, the number is kept as text.
/repo/crates/openid/src/error.rs 194. -/
def optNum (ms : List (String × Json)) (k : String) : Option (Option String) :=
  match ms.filter (·.1 == k) with
  | [] => some none
  | [(_, .null)] => some none
  | [(_, .num s)] => some (some s)
  | _ => none

/-- `serde_json::from_str::<OidError>` (error.rs 194). -/
def OidFields.ofText (l : List Char) : Option OidFields := do
  match parseJson l with
  | some (.obj ms) =>
    let error ← reqString ms "error"
    let description ← reqString ms "error_description"
    let state ← optString ms "state"
    let cNonce ← optString ms "c_nonce"
    let expiresIn ← optNum ms "c_nonce_expires_in"
    some { error, description, state, cNonce, expiresIn }
  | _ => none

/-- `Serialize for Error` (error.rs 190-199): what is handed to the serializer, or failure. -/
def OidErr.fields (e : OidErr) : Option OidFields := OidFields.ofText e.display

theorem OidCode.clean (c : OidCode) : Clean c.text.toList := by
  cases c <;> (unfold Clean; decide)

/-- Reading an object member with a clean name and a string value. -/
theorem members_str (n : Nat) (k t : List Char) (hk : Clean k) (w : List Char) (hw : w = [] ∨ w = [' ']) :
    members (n + 2) (w ++ '"' :: k ++ '"' :: ':' :: ' ' :: '"' :: t) =
      match lexStr (t.length + 1) t with
      | none => none
      | some (s, r) =>
        match skipWs r with
        | ',' :: r => (members (n + 1) r).map fun p => ((String.ofList k, .str (String.ofList s)) :: p.1, p.2)
        | '}' :: r => some ([(String.ofList k, .str (String.ofList s))], r)
        | _ => none := by
  have h1 : skipWs (w ++ '"' :: k ++ '"' :: ':' :: ' ' :: '"' :: t) = '"' :: (k ++ '"' :: ':' :: ' ' :: '"' :: t) := by
    rcases hw with rfl | rfl <;> simp [skipWs, isWs]
  have h2 : value (n + 1) (' ' :: '"' :: t) = (lexStr (t.length + 1) t).map fun p => (.str (String.ofList p.1), p.2) := by
    simp [value, skipWs, isWs]
  rw [members, h1]
  simp only
  rw [lexStr_clean k _ hk _ (by simp only [List.length_append, List.length_cons]; omega)]
  simp only [skipWs_cons (show isWs ':' = false by decide), h2]
  cases h : lexStr (t.length + 1) t with
  | none => rfl
  | some p => rfl

/-- Reading a last object member with a clean name and a number. -/
theorem members_num (n : Nat) (k t : List Char) (hk : Clean k) (ht : NumText t) :
    members (n + 2) (' ' :: '"' :: k ++ '"' :: ':' :: ' ' :: (t ++ ['}'])) = some ([(String.ofList k, .num (String.ofList t))], []) := by
  have h1 : skipWs (' ' :: '"' :: k ++ '"' :: ':' :: ' ' :: (t ++ ['}'])) = '"' :: (k ++ '"' :: ':' :: ' ' :: (t ++ ['}'])) := by
    simp [skipWs, isWs]
  have h2 : value (n + 1) (' ' :: (t ++ ['}'])) = some (.num (String.ofList t), ['}']) := by
    obtain ⟨c, l, rfl, hc⟩ := ht.head
    have hl := lexNum_ok ht ['}'] (Ends.cons (by simp))
    have hw : isWs c = false := by
      cases hw : isWs c with
      | false => rfl
      | true =>
        simp only [isWs, Bool.or_eq_true, decide_eq_true_eq] at hw
        rcases hw with ((rfl | rfl) | rfl) | rfl <;> exact absurd hc (by decide)
    have hq : c ≠ '"' ∧ c ≠ '[' ∧ c ≠ '{' := by
      refine ⟨?_, ?_, ?_⟩ <;> (rintro rfl; exact absurd hc (by decide))
    simp only [List.cons_append] at hl ⊢
    rw [value]
    simp only [skipWs, show isWs ' ' = true by decide, hw, if_true, Bool.false_eq_true, if_false]
    rw [if_neg hq.1, if_neg hq.2.1, if_neg hq.2.2, if_pos hc, hl]
    rfl
  rw [members, h1]
  simp only
  rw [lexStr_clean k _ hk _ (by simp only [List.length_append, List.length_cons]; omega)]
  simp only [skipWs_cons (show isWs ':' = false by decide), h2, skipWs_cons (show isWs '}' = false by decide)]

theorem skipWs_length (l : List Char) : (skipWs l).length ≤ l.length := by
  induction l with
  | nil => simp [skipWs]
  | cons c l ih => simp only [skipWs]; split <;> simp only [List.length_cons] <;> omega

theorem lexStr_length {n : Nat} {l s r : List Char} (h : lexStr n l = some (s, r)) : s.length + r.length + 1 ≤ l.length := by
  rcases lexStr_spec n l s r h with ⟨rfl, _⟩ | h
  · simp only [List.length_append, List.length_cons]; omega
  · omega

theorem digits_length (l : List Char) : (digits l).2.length ≤ l.length := by
  induction l with
  | nil => simp [digits]
  | cons c l ih => simp only [digits]; split <;> simp only [List.length_cons] <;> omega

theorem digits1_length {l : List Char} {p : List Char × List Char} (h : digits1 l = some p) : p.2.length ≤ l.length := by
  unfold digits1 at h
  split at h
  · cases h
  · cases h; exact digits_length l

theorem lexNum_length {l : List Char} {p : List Char × List Char} (h : lexNum l = some p) : p.2.length ≤ l.length := by
  have hi : ∀ {l : List Char} {p}, lexInt l = some p → p.2.length ≤ l.length := by
    intro l p h
    unfold lexInt at h
    split at h
    · cases h; simp
    · exact digits1_length h
  have hf : ∀ {l : List Char} {p}, lexFrac l = some p → p.2.length ≤ l.length := by
    intro l p h
    unfold lexFrac at h
    split at h
    · simp only [Option.map_eq_some_iff] at h
      obtain ⟨a, h, rfl⟩ := h
      have := digits1_length h
      simp only [List.length_cons]; omega
    · cases h; simp
  have hsg : ∀ l : List Char, (lexSign l).2.length ≤ l.length := by
    intro l; unfold lexSign; split <;> simp
  have he : ∀ {l : List Char} {p}, lexExp l = some p → p.2.length ≤ l.length := by
    intro l p h
    unfold lexExp at h
    split at h
    · rename_i c r
      split at h
      · simp only [Option.map_eq_some_iff] at h
        obtain ⟨a, h, rfl⟩ := h
        have := digits1_length h
        have := hsg r
        simp only [List.length_cons]; omega
      · cases h; simp
    · cases h; simp
  have hu : ∀ {l : List Char} {p}, lexUnsigned l = some p → p.2.length ≤ l.length := by
    intro l p h
    simp only [lexUnsigned, bind, Option.bind_eq_some_iff, pure, Option.some.injEq] at h
    obtain ⟨a, h1, b, h2, c, h3, rfl⟩ := h
    have := hi h1; have := hf h2; have := he h3
    simp only; omega
  unfold lexNum at h
  split at h
  · simp only [Option.map_eq_some_iff] at h
    obtain ⟨a, h, rfl⟩ := h
    have := hu h
    simp only [List.length_cons]; omega
  · exact hu h

/-- Reading consumes text, and the strings read are shorter than the text consumed. -/
theorem reading_length (n : Nat) :
    (∀ l j r, value n l = some (j, r) → r.length ≤ l.length ∧ ∀ s, j = .str s → s.toList.length + r.length + 2 ≤ l.length) ∧
    (∀ l js r, elements n l = some (js, r) → r.length ≤ l.length) ∧
    (∀ l ms r, members n l = some (ms, r) → r.length ≤ l.length ∧ ∀ k s, (k, Json.str s) ∈ ms → s.toList.length + 2 ≤ l.length) := by
  induction n with
  | zero => refine ⟨?_, ?_, ?_⟩ <;> (intro l j r h; simp [value, elements, members] at h)
  | succ n ih =>
    obtain ⟨ihv, ihe, ihm⟩ := ih
    refine ⟨?_, ?_, ?_⟩
    · intro l j r h
      rw [value] at h
      have hl := skipWs_length l
      split at h
      · cases h
      · rename_i c t heq
        rw [heq] at hl
        simp only [List.length_cons] at hl
        split at h
        · simp only [Option.map_eq_some_iff] at h
          obtain ⟨⟨s, r'⟩, h, h2⟩ := h
          simp only [Prod.mk.injEq] at h2
          obtain ⟨rfl, rfl⟩ := h2
          have := lexStr_length h
          refine ⟨by omega, ?_⟩
          intro s' he
          cases he
          simp only [String.toList_ofList]; omega
        · split at h
          · have hl2 := skipWs_length t
            split at h
            · rename_i heq2
              cases h
              rw [heq2] at hl2; simp only [List.length_cons] at hl2
              exact ⟨by omega, by intro s h; cases h⟩
            · simp only [Option.map_eq_some_iff] at h
              obtain ⟨⟨s, r'⟩, h, h2⟩ := h
              simp only [Prod.mk.injEq] at h2
              obtain ⟨rfl, rfl⟩ := h2
              have := ihe _ _ _ h
              exact ⟨by omega, by intro s h; cases h⟩
          · split at h
            · have hl2 := skipWs_length t
              split at h
              · rename_i heq2
                cases h
                rw [heq2] at hl2; simp only [List.length_cons] at hl2
                exact ⟨by omega, by intro s h; cases h⟩
              · simp only [Option.map_eq_some_iff] at h
                obtain ⟨⟨s, r'⟩, h, h2⟩ := h
                simp only [Prod.mk.injEq] at h2
                obtain ⟨rfl, rfl⟩ := h2
                have := (ihm _ _ _ h).1
                exact ⟨by omega, by intro s h; cases h⟩
            · split at h
              · simp only [Option.map_eq_some_iff] at h
                obtain ⟨p, h, h2⟩ := h
                simp only [Prod.mk.injEq] at h2
                obtain ⟨rfl, rfl⟩ := h2
                have := lexNum_length h
                simp only [List.length_cons] at this
                exact ⟨by omega, by intro s h; cases h⟩
              · unfold lexLiteral at h
                split at h
                all_goals first | (cases h; done) | skip
                all_goals
                  rename_i heq3
                  cases h
                  have := congrArg List.length heq3
                  simp only [List.length_cons] at this
                  exact ⟨by omega, by intro s h; cases h⟩
    · intro l js r h
      rw [elements] at h
      split at h
      · cases h
      · rename_i v t hv
        have := (ihv _ _ _ hv).1
        have hl := skipWs_length t
        split at h
        · rename_i heq
          simp only [Option.map_eq_some_iff] at h
          obtain ⟨⟨s, r'⟩, h, h2⟩ := h
          simp only [Prod.mk.injEq] at h2
          obtain ⟨rfl, rfl⟩ := h2
          have := ihe _ _ _ h
          rw [heq] at hl; simp only [List.length_cons] at hl; omega
        · rename_i heq
          cases h
          rw [heq] at hl; simp only [List.length_cons] at hl; omega
        · cases h
    · intro l ms r h
      rw [members] at h
      have hl := skipWs_length l
      split at h
      · rename_i t heq
        rw [heq] at hl; simp only [List.length_cons] at hl
        split at h
        · cases h
        · rename_i k t2 hk
          have hk := lexStr_length hk
          have hl2 := skipWs_length t2
          split at h
          · rename_i t3 heq2
            rw [heq2] at hl2; simp only [List.length_cons] at hl2
            split at h
            · cases h
            · rename_i v t4 hv
              have hv := ihv _ _ _ hv
              have hl3 := skipWs_length t4
              split at h
              · rename_i t5 heq3
                rw [heq3] at hl3; simp only [List.length_cons] at hl3
                simp only [Option.map_eq_some_iff] at h
                obtain ⟨⟨s, r'⟩, h, h2⟩ := h
                simp only [Prod.mk.injEq] at h2
                obtain ⟨rfl, rfl⟩ := h2
                have hm := ihm _ _ _ h
                refine ⟨by omega, ?_⟩
                intro k' s' hmem
                rcases List.mem_cons.1 hmem with he | hmem
                · simp only [Prod.mk.injEq] at he
                  have := hv.2 s' he.2.symm
                  omega
                · have := hm.2 k' s' hmem; omega
              · rename_i t5 heq3
                rw [heq3] at hl3; simp only [List.length_cons] at hl3
                cases h
                refine ⟨by omega, ?_⟩
                intro k' s' hmem
                simp only [List.mem_singleton, Prod.mk.injEq] at hmem
                have := hv.2 s' hmem.2.symm
                omega
              · cases h
          · cases h
      · cases h

end Verif
