import Verif.Macros.Model
/-!
# What a request made with a macro says (C131)
-/
namespace Verif.Macros
open Verif

/-! ### Specification -/

/-- The object has this member. If a name is written twice, the later one counts. Specification; models no code. -/
def Field (m : Fields) (k : String) (v : Value) : Prop := ∃ a b, m = a ++ (k, v) :: b ∧ ∀ w, (k, w) ∉ b

/-- The object has no such member. Specification; models no code. -/
def Lacks (m : Fields) (k : String) : Prop := ∀ v, (k, v) ∉ m

/-- Nothing but these members is written. Specification; models no code. -/
def Only (m : Fields) (ks : List String) : Prop := ∀ x ∈ m, x.1 ∈ ks

section
variable (env : String → Rust)

/-- The value is this text: written out, or the value of a Rust expression. Specification; models no code. -/
inductive IsText : Value → String → Prop
  | literal (s : String) : IsText (.str s) s
  | owned {e s : String} : env e = .owned s → IsText (.expr e) s
  | borrowed {e s : String} : env e = .borrowed s → IsText (.expr e) s

/-- As `IsText`, without references: a text written out or a `String`. Specification; models no code. -/
inductive IsString : Value → String → Prop
  | literal (s : String) : IsString (.str s) s
  | owned {e s : String} : env e = .owned s → IsString (.expr e) s

/-- Element by element. Specification; models no code. -/
inductive Each {α : Type} (R : Value → α → Prop) : List Value → List α → Prop
  | nil : Each R [] []
  | cons {v : Value} {a : α} {l : List Value} {as : List α} : R v a → Each R l as → Each R (v :: l) (a :: as)

/-- A list of texts. Specification; models no code. -/
inductive IsTexts : Value → List String → Prop
  | literal {l : List Value} {ss : List String} : Each (IsString env) l ss → IsTexts (.arr l) ss
  | value {e : String} {ss : List String} : env e = .texts ss → IsTexts (.expr e) ss

/-- The member is there and is this text. Specification; models no code. -/
def TextAt (m : Fields) (k s : String) : Prop := ∃ v, Field m k v ∧ IsText env v s

/-- A member that need not be there: if the result relates to a value, so does the member; and it is missing otherwise. Specification; models no code. -/
def MaybeAt {α : Type} (R : Value → α → Prop) (m : Fields) (k : String) : Option α → Prop
  | none => Lacks m k
  | some a => ∃ v, Field m k v ∧ R v a

end

/-! ### Members -/

theorem get_none {k : String} {m : Fields} : get k m = none ↔ Lacks m k := by
  induction m with
  | nil => simp [get, Lacks]
  | cons x m ih =>
    obtain ⟨k', w⟩ := x
    have hl : Lacks ((k', w) :: m) k ↔ k' ≠ k ∧ Lacks m k := by
      constructor
      · intro h
        exact ⟨fun hk => h w (by simp [hk]), fun v hv => h v (List.mem_cons_of_mem _ hv)⟩
      · rintro ⟨h1, h2⟩ v hv
        rcases List.mem_cons.1 hv with h | h
        · cases h; exact h1 rfl
        · exact h2 v h
    simp only [get]
    rw [hl, ← ih]
    cases get k m with
    | some u => simp
    | none => simp

theorem get_some {k : String} {m : Fields} {v : Value} : get k m = some v ↔ Field m k v := by
  induction m generalizing v with
  | nil => simp [get, Field]
  | cons x m ih =>
    obtain ⟨k', w⟩ := x
    simp only [get]
    cases hg : get k m with
    | some u =>
      obtain ⟨a, b, hm, hb⟩ := ih.1 hg
      constructor
      · rintro ⟨⟩
        exact ⟨(k', w) :: a, b, by rw [hm]; rfl, hb⟩
      · rintro ⟨a', b', h, hb'⟩
        cases a' with
        | nil =>
          injection h with h1 h2
          subst h2
          exact absurd (by rw [hm]; simp) (hb' u)
        | cons y a' =>
          injection h with h1 h2
          exact hg.symm.trans (ih.2 ⟨a', b', h2, hb'⟩)
    | none =>
      have hn := get_none.1 hg
      constructor
      · intro h
        have h : (if k' = k then some w else none) = some v := h
        by_cases hk : k' = k
        · rw [if_pos hk] at h
          cases h
          exact ⟨[], m, by rw [hk]; rfl, hn⟩
        · rw [if_neg hk] at h
          cases h
      · rintro ⟨a', b', h, hb'⟩
        cases a' with
        | nil =>
          injection h with h1 h2
          cases h1
          simp
        | cons y a' =>
          injection h with h1 h2
          exact absurd (by rw [h2]; simp) (hn v)

theorem consumed_iff {ks : List String} {m : Fields} {u : Unit} : consumed ks m = some u ↔ Only m ks := by
  simp [consumed, Only]

section
variable {env : String → Rust} {m : Fields} {k : String}

theorem intoString_iff {v : Value} {s : String} : intoString env v = some s ↔ IsText env v s := by
  constructor
  · intro h
    cases v with
    | str t => cases h; exact .literal _
    | expr e =>
      simp only [intoString] at h
      split at h
      · rename_i he; cases h; exact .owned he
      · rename_i he; cases h; exact .borrowed he
      · cases h
    | _ => cases h
  · rintro (_ | he | he)
    · rfl
    · simp only [intoString, he]
    · simp only [intoString, he]

theorem string_iff {v : Value} {s : String} : string env v = some s ↔ IsString env v s := by
  constructor
  · intro h
    cases v with
    | str t => cases h; exact .literal _
    | expr e =>
      simp only [string] at h
      split at h
      · rename_i he; cases h; exact .owned he
      · cases h
    | _ => cases h
  · rintro (_ | he)
    · rfl
    · simp only [string, he]

theorem mapM_iff {α : Type} {f : Value → Option α} {R : Value → α → Prop} (hf : ∀ v a, f v = some a ↔ R v a) {l : List Value} {as : List α} :
    l.mapM f = some as ↔ Each R l as := by
  induction l generalizing as with
  | nil =>
    simp only [List.mapM_nil]
    constructor
    · intro h; cases h; exact .nil
    · intro h; cases h; rfl
  | cons v l ih =>
    simp only [List.mapM_cons]
    constructor
    · intro h
      cases hv : f v with
      | none => rw [hv] at h; cases h
      | some a =>
        cases hl : l.mapM f with
        | none => rw [hv, hl] at h; cases h
        | some bs =>
          rw [hv, hl] at h
          cases h
          exact .cons ((hf _ _).1 hv) (ih.1 hl)
    · intro h
      cases h with
      | cons h1 h2 => rw [(hf _ _).2 h1, ih.2 h2]; rfl

theorem strings_iff {v : Value} {ss : List String} : strings env v = some ss ↔ IsTexts env v ss := by
  constructor
  · intro h
    cases v with
    | arr l => exact .literal ((mapM_iff fun _ _ => string_iff).1 h)
    | expr e =>
      simp only [strings] at h
      split at h
      · rename_i he; cases h; exact .value he
      · cases h
    | _ => cases h
  · rintro (h | he)
    · exact (mapM_iff fun _ _ => string_iff).2 h
    · simp only [strings, he]

theorem required_iff {s : String} : required env k m = some s ↔ TextAt env m k s := by
  simp only [required, Option.bind_eq_some_iff, TextAt, get_some, intoString_iff]

/-- A reader of an optional member that leaves out what is not there. -/
theorem maybe_iff {α : Type} {f : Value → Option α} {R : Value → α → Prop} (hf : ∀ v a, f v = some a ↔ R v a) {o : Option α} :
    (match get k m with | none => some none | some v => (f v).map some) = some o ↔ MaybeAt R m k o := by
  cases hg : get k m with
  | none =>
    have := get_none.1 hg
    cases o with
    | none => simp [MaybeAt, this]
    | some a =>
      simp only [MaybeAt, Option.some.injEq, reduceCtorEq, false_iff]
      rintro ⟨v, hv, _⟩
      rw [get_some.2 hv] at hg
      cases hg
  | some v =>
    cases o with
    | none =>
      simp only [MaybeAt, Option.map_eq_some_iff, reduceCtorEq, and_false, exists_false, false_iff]
      intro h
      rw [get_none.2 h] at hg
      cases hg
    | some a =>
      simp only [MaybeAt, Option.map_eq_some_iff, Option.some.injEq, exists_eq_right, hf]
      constructor
      · exact fun h => ⟨v, get_some.1 hg, h⟩
      · rintro ⟨w, hw, h⟩
        rw [get_some.2 hw] at hg
        cases hg
        exact h

theorem optional_iff {o : Option String} : optional env k m = some o ↔ MaybeAt (IsText env) m k o :=
  maybe_iff fun _ _ => intoString_iff

end

/-! ### `create_offer_request!` -/

/-- The grant types by their names. Specification, after RFC 6749 and OpenID4VCI; models no code. -/
inductive IsGrant : Value → GrantType → Prop
  | code : IsGrant (.str "authorization_code") .authorizationCode
  | preAuthorized : IsGrant (.str "urn:ietf:params:oauth:grant-type:pre-authorized_code") .preAuthorizedCode

/-- A list of at most one grant type. Specification; models no code. -/
def IsGrants (v : Value) (g : List GrantType) : Prop := ∃ l, v = .arr l ∧ Each IsGrant l g ∧ l.length ≤ 1

section
variable (env : String → Rust)

/-- A truth value. Specification; models no code. -/
inductive IsBool : Value → Bool → Prop
  | literal (b : Bool) : IsBool (.bool b) b
  | value {e : String} {b : Bool} : env e = .flag b → IsBool (.expr e) b

/-- How to send: given as a value; or by a text, of which `by_ref` alone is a name of `ByRef`. Specification; models no code. -/
inductive IsSend : Value → Issuer.SendType → Prop
  | value {e : String} {t : Issuer.SendType} : env e = .sendType t → IsSend (.expr e) t
  | text {v : Value} {s : String} : IsString env v s → s ≠ "by_ref" → IsSend v .byVal
  | byRef {v : Value} : IsString env v "by_ref" → IsSend v .byRef

/-- What an offer request made from these members says. Specification; models no code. -/
structure OfferSays (m : Fields) (r : Issuer.CreateOfferRequest) : Prop where
  issuer : TextAt env m "credential_issuer" r.credentialIssuer
  subject : MaybeAt (IsText env) m "subject_id" r.subjectId
  configurations : ∃ l, Field m "credential_configuration_ids" (.arr l) ∧ l ≠ [] ∧ Each (IsString env) l r.configIds
  grants : MaybeAt IsGrants m "grant_types" r.grantTypes
  txCode : Lacks m "tx_code_required" ∧ r.txCodeRequired = false ∨ ∃ v, Field m "tx_code_required" v ∧ IsBool env v r.txCodeRequired
  send : Lacks m "send_type" ∧ r.sendType = .byVal ∨ ∃ v, Field m "send_type" v ∧ IsSend env v r.sendType
  only : Only m ["credential_issuer", "subject_id", "credential_configuration_ids", "grant_types", "tx_code_required", "send_type"]

end

theorem juxtaposed_iff {α : Type} {l r : List α} : juxtaposed l = some r ↔ l = r ∧ l.length ≤ 1 := by
  match l with
  | [] => simp [juxtaposed]
  | [a] => simp [juxtaposed]
  | a :: b :: l => simp [juxtaposed]

theorem Each.length {α : Type} {R : Value → α → Prop} {l : List Value} {as : List α} (h : Each R l as) : l.length = as.length := by
  induction h with
  | nil => rfl
  | cons _ _ ih => simp [ih]

theorem grantType_iff {v : Value} {g : GrantType} : grantType v = some g ↔ IsGrant v g := by
  constructor
  · intro h
    cases v with
    | str s =>
      simp only [grantType] at h
      split at h
      · rename_i hs; cases h; subst hs; exact .preAuthorized
      · split at h
        · rename_i hs; cases h; subst hs; exact .code
        · cases h
    | _ => cases h
  · rintro (_ | _)
    · simp [grantType]
    · simp [grantType]

/-- Elements written one after the other. -/
theorem several_iff {α : Type} {f : Value → Option α} {R : Value → α → Prop} (hf : ∀ v a, f v = some a ↔ R v a) {l : List Value} {as : List α} :
    (l.mapM f).bind juxtaposed = some as ↔ Each R l as ∧ l.length ≤ 1 := by
  simp only [Option.bind_eq_some_iff, mapM_iff hf, juxtaposed_iff]
  constructor
  · rintro ⟨bs, h, rfl, hl⟩
    exact ⟨h, h.length ▸ hl⟩
  · rintro ⟨h, hl⟩
    exact ⟨as, h, rfl, h.length ▸ hl⟩

theorem severalAt_iff {α : Type} {f : Value → Option α} {R : Value → α → Prop} (hf : ∀ v a, f v = some a ↔ R v a) {F : Option Value → Option (Option (List α))}
    (h0 : F none = some none) (h1 : ∀ l, F (some (.arr l)) = ((l.mapM f).bind juxtaposed).map some) (h2 : ∀ v, (∀ l, v ≠ .arr l) → F (some v) = none)
    {m : Fields} {k : String} {o : Option (List α)} :
    F (get k m) = some o ↔ MaybeAt (fun v as => ∃ l, v = .arr l ∧ Each R l as ∧ l.length ≤ 1) m k o := by
  rw [← maybe_iff (f := fun v => match v with | .arr l => (l.mapM f).bind juxtaposed | _ => none)]
  · cases get k m with
    | none => rw [h0]
    | some v =>
      cases v with
      | arr l => rw [h1]
      | _ => rw [h2 _ (by simp)]; rfl
  · intro v as
    cases v with
    | arr l =>
      simp only [several_iff hf]
      constructor
      · exact fun h => ⟨l, rfl, h⟩
      · rintro ⟨l', h, h'⟩; cases h; exact h'
    | _ => simp

section
variable {env : String → Rust} {m : Fields}

theorem boolean_iff {v : Value} {b : Bool} : boolean env v = some b ↔ IsBool env v b := by
  constructor
  · intro h
    cases v with
    | bool t => cases h; exact .literal _
    | expr e =>
      simp only [boolean] at h
      split at h
      · rename_i he; cases h; exact .value he
      · cases h
    | _ => cases h
  · rintro (_ | he)
    · rfl
    · simp only [boolean, he]

theorem sendFrom_is {v : Value} {s : String} (h : IsString env v s) : IsSend env v (sendFrom s) := by
  unfold sendFrom
  split
  · rename_i hs; subst hs; exact .byRef h
  · rename_i hs; exact .text h hs

theorem sendType_iff {v : Value} {t : Issuer.SendType} : sendType env (some v) = some t ↔ IsSend env v t := by
  constructor
  · intro h
    cases v with
    | str s => cases h; exact sendFrom_is (.literal s)
    | expr e =>
      simp only [sendType] at h
      split at h
      · rename_i he; cases h; exact sendFrom_is (.owned he)
      · rename_i he; cases h; exact .value he
      · cases h
    | _ => cases h
  · rintro (he | ⟨h, hs⟩ | h)
    · simp only [sendType, he]
    · cases h with
      | literal => simp [sendType, sendFrom, hs]
      | owned he => simp [sendType, he, sendFrom, hs]
    · cases h with
      | literal => simp [sendType, sendFrom]
      | owned he => simp [sendType, he, sendFrom]

theorem defaulted_iff {α : Type} {F : Option Value → Option α} {R : Value → α → Prop} {d : α} (h0 : F none = some d)
    (h1 : ∀ v a, F (some v) = some a ↔ R v a) {k : String} {a : α} :
    F (get k m) = some a ↔ (Lacks m k ∧ a = d ∨ ∃ v, Field m k v ∧ R v a) := by
  cases hg : get k m with
  | none =>
    have hl := get_none.1 hg
    rw [h0, Option.some.injEq]
    constructor
    · exact fun h => .inl ⟨hl, h.symm⟩
    · rintro (h | ⟨v, hv, _⟩)
      · exact h.2.symm
      · rw [get_some.2 hv] at hg; cases hg
  | some v =>
    rw [h1]
    constructor
    · exact fun h => .inr ⟨v, get_some.1 hg, h⟩
    · rintro (h | ⟨w, hw, h⟩)
      · rw [get_none.2 h.1] at hg; cases hg
      · rw [get_some.2 hw] at hg; cases hg; exact h

theorem configurationIds_iff {k : String} {ids : List String} :
    configurationIds env (get k m) = some ids ↔ ∃ l, Field m k (.arr l) ∧ l ≠ [] ∧ Each (IsString env) l ids := by
  cases hg : get k m with
  | none =>
    simp only [configurationIds, reduceCtorEq, false_iff]
    rintro ⟨l, h, _⟩
    rw [get_some.2 h] at hg; cases hg
  | some v =>
    have key : (∃ l, Field m k (.arr l) ∧ l ≠ [] ∧ Each (IsString env) l ids) ↔ ∃ l, v = .arr l ∧ l ≠ [] ∧ Each (IsString env) l ids := by
      constructor
      · rintro ⟨l, h, h'⟩
        rw [get_some.2 h] at hg; cases hg
        exact ⟨l, rfl, h'⟩
      · rintro ⟨l, rfl, h'⟩
        exact ⟨l, get_some.1 hg, h'⟩
    rw [key]
    cases v with
    | arr l =>
      simp only [configurationIds, Value.arr.injEq, exists_eq_left']
      cases l with
      | nil => simp
      | cons x l =>
        rw [if_neg (by simp), mapM_iff (fun v a => string_iff (env := env) (v := v) (s := a))]
        simp
    | _ => simp [configurationIds]

/-- **C131** `create_offer_request!` makes a request exactly if there is one that says what is written, and then it makes this one: all members are taken
over, none is made up, and none is left out. It takes no more than one grant type. -/
theorem C131_offer_request_partial {r : Issuer.CreateOfferRequest} : createOffer env m = some r ↔ OfferSays env m r := by
  simp only [createOffer, Option.bind_eq_bind, Option.bind_eq_some_iff, Option.pure_def, Option.some.injEq, required_iff, optional_iff, configurationIds_iff,
    severalAt_iff (F := grantTypes) (fun v a => grantType_iff (v := v) (g := a)) rfl (fun _ => rfl) (fun v h => by cases v <;> first | rfl | exact absurd rfl (h _)),
    defaulted_iff (F := txCode env) rfl (fun v a => boolean_iff (env := env) (v := v) (b := a)), defaulted_iff (F := sendType env) rfl (fun v a => sendType_iff),
    consumed_iff]
  constructor
  · rintro ⟨i, h1, s, h2, c, h3, g, h4, t, h5, d, h6, u, h7, rfl⟩
    exact ⟨h1, h2, h3, h4, h5, h6, h7⟩
  · rintro ⟨h1, h2, h3, h4, h5, h6, h7⟩
    exact ⟨_, h1, _, h2, _, h3, _, h4, _, h5, _, h6, (), h7, rfl⟩

end

/-! ### `authorization_request!` -/

/-- What is made of a claim that is asked for: an object with members is taken for claims inside this one, and of all else only the name counts.
Specification; models no code. -/
inductive IsClaim : Value → Wire.Claim → Prop
  | entry {v : Value} : (∀ m, v = .obj m → m = []) → IsClaim v (.entry {})
  | set {m : Fields} {cs : Dict Wire.Claim} : m ≠ [] → (∀ k, (∃ c, cs.get? k = some c) ↔ ∃ v, Field m k v) →
      (∀ k c v, cs.get? k = some c → Field m k v → IsClaim v c) → IsClaim (.obj m) (.set cs)

/-- The claims of an object, by their names. Specification; models no code. -/
def IsClaims (v : Value) (cs : Dict Wire.Claim) : Prop :=
  ∃ m, v = .obj m ∧ (∀ k, (∃ c, cs.get? k = some c) ↔ ∃ v, Field m k v) ∧ ∀ k c v, cs.get? k = some c → Field m k v → IsClaim v c

/-- The type is right, or not written out. Specification; models no code. -/
def TypeFits (m : Fields) : Prop := ∃ v, Field m "type" v ∧ ∀ s, v = .str s → s = "openid_credential"

section
variable (env : String → Rust)

/-- A definition with the types and claims it names. Specification; models no code. -/
def IsDefinition (needsType : Bool) (v : Value) (d : Wire.CredentialDefinition) : Prop :=
  ∃ m, v = .obj m ∧ d.context = none ∧ MaybeAt (IsTexts env) m "type" d.type_ ∧ MaybeAt IsClaims m "credentialSubject" d.credentialSubject ∧
    (needsType = true → d.type_ ≠ none)

/-- The credential that is asked for: by the name of a configuration, with a definition if there is one; or by the one known format. Nothing else that is
written is taken over. Specification; models no code. -/
def IsDetail (v : Value) (d : Wire.AuthorizationDetail) : Prop :=
  ∃ m, v = .obj m ∧ TypeFits m ∧ d.locations = none ∧
    ((∃ w id claims, Field m "credential_configuration_id" w ∧ IsString env w id ∧ d.credential = .configurationId id claims ∧
        MaybeAt (fun v c => ∃ x, c = .w3c x ∧ IsDefinition env false v x) m "credential_definition" claims) ∨
      Lacks m "credential_configuration_id" ∧ Field m "format" (.str "jwt_vc_json") ∧
        ∃ w x, Field m "credential_definition" w ∧ IsDefinition env true w x ∧ d.credential = .format (.jwtVcJson x))

/-- The response type: a value, or whatever text, which is taken for `code`. Specification; models no code. -/
inductive IsResponse : Value → Wire.ResponseType → Prop
  | value {e : String} {r : Wire.ResponseType} : env e = .responseType r → IsResponse (.expr e) r
  | text {v : Value} {s : String} : IsText env v s → IsResponse v .code

/-- The challenge method: a value, or whatever text. Specification; models no code. -/
inductive IsMethod : Value → Prop
  | value {e : String} : env e = .challengeMethod → IsMethod (.expr e)
  | text {v : Value} {s : String} : IsText env v s → IsMethod v

/-- What an authorization request made from these members says. Specification; models no code. -/
structure AuthorizationSays (D : Value → Wire.AuthorizationDetail → Prop) (m : Fields) (r : Wire.RequestObject) : Prop where
  issuer : TextAt env m "credential_issuer" r.credentialIssuer
  response : ∃ v, Field m "response_type" v ∧ IsResponse env v r.responseType
  client : TextAt env m "client_id" r.clientId
  challenge : TextAt env m "code_challenge" r.codeChallenge
  method : ∃ v, Field m "code_challenge_method" v ∧ IsMethod env v
  subject : TextAt env m "subject_id" r.subjectId
  redirect : MaybeAt (IsText env) m "redirect_uri" r.redirectUri
  state : MaybeAt (IsText env) m "state" r.state
  scope : MaybeAt (IsText env) m "scope" r.scope
  resource : MaybeAt (IsText env) m "resource" r.resource
  wallet : MaybeAt (IsText env) m "wallet_issuer" r.walletIssuer
  hint : MaybeAt (IsText env) m "user_hint" r.userHint
  issuerState : MaybeAt (IsText env) m "issuer_state" r.issuerState
  details : MaybeAt (fun v as => ∃ l, v = .arr l ∧ Each D l as ∧ l.length ≤ 1) m "authorization_details" r.authorizationDetails
  only : Only m ["credential_issuer", "response_type", "client_id", "code_challenge", "code_challenge_method", "subject_id", "redirect_uri", "state", "scope",
    "resource", "wallet_issuer", "user_hint", "issuer_state", "authorization_details"]

end

theorem claims_get {m : Fields} {acc : Dict Wire.Claim} {k : String} :
    (claims m acc).get? k = match get k m with | some v => some (claim v) | none => acc.get? k := by
  induction m generalizing acc with
  | nil => simp [claims, get]
  | cons x m ih =>
    obtain ⟨k', v⟩ := x
    simp only [claims, ih, get]
    cases get k m with
    | some u => rfl
    | none =>
      by_cases hk : k' = k
      · subst hk; simp [Dict.get?_insert]
      · simp [Dict.get?_insert, hk, Ne.symm hk]

theorem Field.mem {m : Fields} {k : String} {v : Value} (h : Field m k v) : (k, v) ∈ m := by
  obtain ⟨a, b, rfl, _⟩ := h; simp

theorem claims_are {m : Fields} (h : ∀ x ∈ m, IsClaim x.2 (claim x.2)) : (∀ k, (∃ c, (claims m []).get? k = some c) ↔ ∃ v, Field m k v) ∧
    ∀ k c v, (claims m []).get? k = some c → Field m k v → IsClaim v c := by
  constructor
  · intro k
    rw [claims_get]
    cases hg : get k m with
    | none =>
      constructor
      · rintro ⟨c, hc⟩; cases hc
      · rintro ⟨v, hv⟩; rw [get_some.2 hv] at hg; cases hg
    | some v => exact ⟨fun _ => ⟨v, get_some.1 hg⟩, fun _ => ⟨_, rfl⟩⟩
  · intro k c v hc hv
    rw [claims_get, get_some.2 hv] at hc
    cases hc
    exact h _ hv.mem

mutual

theorem claim_is : (v : Value) → IsClaim v (claim v)
  | .obj [] => .entry fun _ h => by cases h; rfl
  | .obj (x :: m) => by
    have h := claims_are (m := x :: m) (list_is (x :: m))
    exact .set (by simp) h.1 h.2
  | .bool _ => .entry fun _ h => by cases h
  | .num _ => .entry fun _ h => by cases h
  | .str _ => .entry fun _ h => by cases h
  | .arr _ => .entry fun _ h => by cases h
  | .expr _ => .entry fun _ h => by cases h

theorem list_is : (m : List (String × Value)) → ∀ x ∈ m, IsClaim x.2 (claim x.2)
  | [], _, h => by cases h
  | (k, v) :: m, x, h => by
    rcases List.mem_cons.1 h with rfl | h
    · exact claim_is v
    · exact list_is m x h

end

section
variable {env : String → Rust} {m : Fields}

theorem subject_is {k : String} {o : Option (Dict Wire.Claim)} (h : subject (get k m) = some o) : MaybeAt IsClaims m k o := by
  cases hg : get k m with
  | none => rw [hg] at h; cases h; exact get_none.1 hg
  | some v =>
    rw [hg] at h
    cases v with
    | obj n => cases h; exact ⟨_, get_some.1 hg, n, rfl, claims_are (list_is n)⟩
    | _ => cases h

theorem subject_ex {k : String} {o : Option (Dict Wire.Claim)} (h : MaybeAt IsClaims m k o) : ∃ o', subject (get k m) = some o' := by
  cases o with
  | none => rw [get_none.2 h]; exact ⟨_, rfl⟩
  | some c =>
    obtain ⟨v, hv, n, rfl, _⟩ := h
    rw [get_some.2 hv]; exact ⟨_, rfl⟩

theorem optionalTypes_iff {k : String} {o : Option (List String)} : optionalTypes env (get k m) = some o ↔ MaybeAt (IsTexts env) m k o := by
  rw [← maybe_iff fun _ _ => strings_iff]
  cases get k m <;> rfl

theorem configurationDefinition_is {v : Value} {d : Wire.CredentialDefinition} (h : configurationDefinition env v = some d) : IsDefinition env false v d := by
  cases v with
  | obj n =>
    simp only [configurationDefinition, Option.bind_eq_bind, Option.bind_eq_some_iff, Option.pure_def, Option.some.injEq] at h
    obtain ⟨t, ht, s, hs, rfl⟩ := h
    exact ⟨n, rfl, rfl, optionalTypes_iff.1 ht, subject_is hs, fun h => by cases h⟩
  | _ => cases h

theorem configurationDefinition_ex {v : Value} {d : Wire.CredentialDefinition} (h : IsDefinition env false v d) : ∃ d', configurationDefinition env v = some d' := by
  obtain ⟨n, rfl, _, ht, hs, _⟩ := h
  obtain ⟨o, ho⟩ := subject_ex hs
  simp only [configurationDefinition, optionalTypes_iff.2 ht, ho]
  exact ⟨_, rfl⟩

theorem formatDefinition_is {v : Value} {d : Wire.CredentialDefinition} (h : formatDefinition env v = some d) : IsDefinition env true v d := by
  cases v with
  | obj n =>
    simp only [formatDefinition, Option.bind_eq_bind, Option.bind_eq_some_iff, Option.pure_def, Option.some.injEq] at h
    obtain ⟨w, hw, t, ht, s, hs, rfl⟩ := h
    exact ⟨n, rfl, rfl, ⟨w, get_some.1 hw, strings_iff.1 ht⟩, subject_is hs, fun _ h => by cases h⟩
  | _ => cases h

theorem formatDefinition_ex {v : Value} {d : Wire.CredentialDefinition} (h : IsDefinition env true v d) : ∃ d', formatDefinition env v = some d' := by
  obtain ⟨n, rfl, _, ht, hs, hn⟩ := h
  obtain ⟨o, ho⟩ := subject_ex hs
  cases hd : d.type_ with
  | none => exact absurd hd (hn rfl)
  | some t =>
    rw [hd] at ht
    obtain ⟨w, hw, ht⟩ := ht
    simp only [formatDefinition, get_some.2 hw, Option.bind_eq_bind, Option.bind_some, strings_iff.2 ht, ho]
    exact ⟨_, rfl⟩

theorem typed_iff {u : Unit} : typed (get "type" m) = some u ↔ TypeFits m := by
  cases hg : get "type" m with
  | none =>
    simp only [typed, reduceCtorEq, false_iff]
    rintro ⟨v, hv, _⟩
    rw [get_some.2 hv] at hg; cases hg
  | some v =>
    have key : TypeFits m ↔ ∀ s, v = .str s → s = "openid_credential" := by
      constructor
      · rintro ⟨w, hw, h⟩
        rw [get_some.2 hw] at hg; cases hg; exact h
      · exact fun h => ⟨v, get_some.1 hg, h⟩
    rw [key]
    cases v <;> simp [typed]

theorem isJwtVcJson_iff {k : String} {u : Unit} : isJwtVcJson (get k m) = some u ↔ Field m k (.str "jwt_vc_json") := by
  rw [← get_some]
  cases get k m with
  | none => simp [isJwtVcJson]
  | some v => cases v <;> simp [isJwtVcJson]

theorem authorizationDetail_is {v : Value} {d : Wire.AuthorizationDetail} (h : authorizationDetail env v = some d) : IsDetail env v d := by
  cases v with
  | obj n =>
    simp only [authorizationDetail, Option.bind_eq_bind, Option.bind_eq_some_iff, Option.pure_def, Option.some.injEq] at h
    obtain ⟨_, ht, c, hc, rfl⟩ := h
    refine ⟨n, rfl, typed_iff.1 ht, rfl, ?_⟩
    unfold credentialAuthorization at hc
    cases hg : get "credential_configuration_id" n with
    | some w =>
      simp only [hg, Option.bind_eq_bind, Option.bind_eq_some_iff, Option.pure_def, Option.some.injEq] at hc
      obtain ⟨id, hid, cl, hcl, rfl⟩ := hc
      refine .inl ⟨w, id, cl, get_some.1 hg, string_iff.1 hid, rfl, ?_⟩
      cases hd : get "credential_definition" n with
      | none => rw [hd] at hcl; cases hcl; exact get_none.1 hd
      | some x =>
        rw [hd] at hcl
        simp only [configurationClaims, Option.map_eq_some_iff] at hcl
        obtain ⟨y, hy, rfl⟩ := hcl
        exact ⟨x, get_some.1 hd, y, rfl, configurationDefinition_is hy⟩
    | none =>
      simp only [hg, Option.bind_eq_bind, Option.bind_eq_some_iff, Option.pure_def, Option.some.injEq] at hc
      obtain ⟨_, hf, w, hw, x, hx, rfl⟩ := hc
      exact .inr ⟨get_none.1 hg, isJwtVcJson_iff.1 hf, w, x, get_some.1 hw, formatDefinition_is hx, rfl⟩
  | _ => cases h

theorem authorizationDetail_ex {v : Value} {d : Wire.AuthorizationDetail} (h : IsDetail env v d) : ∃ d', authorizationDetail env v = some d' := by
  obtain ⟨n, rfl, ht, _, h⟩ := h
  have ht := (typed_iff (u := ())).2 ht
  rcases h with ⟨w, id, cl, hw, hid, _, hcl⟩ | ⟨hl, hf, w, x, hw, hx, _⟩
  · simp only [authorizationDetail, ht, credentialAuthorization, get_some.2 hw, string_iff.2 hid, Option.bind_eq_bind, Option.bind_some]
    cases cl with
    | none => rw [get_none.2 hcl]; exact ⟨_, rfl⟩
    | some c =>
      obtain ⟨y, hy, z, rfl, hz⟩ := hcl
      obtain ⟨d', hd'⟩ := configurationDefinition_ex hz
      rw [get_some.2 hy]
      simp only [configurationClaims, hd']
      exact ⟨_, rfl⟩
  · obtain ⟨d', hd'⟩ := formatDefinition_ex hx
    simp only [authorizationDetail, ht, credentialAuthorization, get_none.2 hl, (isJwtVcJson_iff (u := ())).2 hf, get_some.2 hw, hd', Option.bind_eq_bind, Option.bind_some]
    exact ⟨_, rfl⟩

theorem present_iff {α : Type} {F : Option Value → Option α} {R : Value → α → Prop} (h0 : F none = none)
    (h1 : ∀ v a, F (some v) = some a ↔ R v a) {k : String} {a : α} : F (get k m) = some a ↔ ∃ v, Field m k v ∧ R v a := by
  cases hg : get k m with
  | none =>
    rw [h0]
    simp only [reduceCtorEq, false_iff]
    rintro ⟨v, hv, _⟩
    rw [get_some.2 hv] at hg; cases hg
  | some v =>
    rw [h1]
    constructor
    · exact fun h => ⟨v, get_some.1 hg, h⟩
    · rintro ⟨w, hw, h⟩
      rw [get_some.2 hw] at hg; cases hg; exact h

theorem responseFrom_code (s : String) : responseFrom s = .code := by unfold responseFrom; split <;> rfl

theorem responseType_iff {v : Value} {r : Wire.ResponseType} : responseType env (some v) = some r ↔ IsResponse env v r := by
  constructor
  · intro h
    cases v with
    | str s => cases h; rw [responseFrom_code]; exact .text (.literal s)
    | expr e =>
      simp only [responseType] at h
      split at h
      · rename_i he; cases h; rw [responseFrom_code]; exact .text (.owned he)
      · rename_i he; cases h; rw [responseFrom_code]; exact .text (.borrowed he)
      · rename_i he; cases h; exact .value he
      · cases h
    | _ => cases h
  · rintro (he | h)
    · simp only [responseType, he]
    · cases h with
      | literal => simp [responseType, responseFrom_code]
      | owned he => simp [responseType, he, responseFrom_code]
      | borrowed he => simp [responseType, he, responseFrom_code]

theorem challengeMethod_iff {v : Value} {u : Unit} : challengeMethod env (some v) = some u ↔ IsMethod env v := by
  constructor
  · intro h
    cases v with
    | str s => exact .text (.literal s)
    | expr e =>
      simp only [challengeMethod] at h
      split at h
      · rename_i he; exact .text (.owned he)
      · rename_i he; exact .text (.borrowed he)
      · rename_i he; exact .value he
      · cases h
    | _ => cases h
  · rintro (he | h)
    · simp only [challengeMethod, he]
    · cases h with
      | literal => rfl
      | owned he => simp only [challengeMethod, he]
      | borrowed he => simp only [challengeMethod, he]

theorem authorizationRequest_iff {r : Wire.RequestObject} :
    authorizationRequest env m = some r ↔ AuthorizationSays env (fun v d => authorizationDetail env v = some d) m r := by
  simp only [authorizationRequest, Option.bind_eq_bind, Option.bind_eq_some_iff, Option.pure_def, Option.some.injEq, required_iff, optional_iff,
    severalAt_iff (F := authorizationDetails env) (fun v a => Iff.rfl) rfl (fun _ => rfl) (fun v h => by cases v <;> first | rfl | exact absurd rfl (h _)),
    present_iff (F := responseType env) rfl (fun v a => responseType_iff), present_iff (F := challengeMethod env) rfl (fun v a => challengeMethod_iff), consumed_iff]
  constructor
  · rintro ⟨_, h1, _, h2, _, h3, _, h4, _, h5, _, h6, _, h7, _, h8, _, h9, _, h10, _, h11, _, h12, _, h13, _, h14, _, h15, rfl⟩
    exact ⟨h1, h2, h3, h4, h5, h6, h7, h8, h9, h10, h11, h12, h13, h14, h15⟩
  · rintro ⟨h1, h2, h3, h4, h5, h6, h7, h8, h9, h10, h11, h12, h13, h14, h15⟩
    exact ⟨_, h1, _, h2, _, h3, _, h4, (), h5, _, h6, _, h7, _, h8, _, h9, _, h10, _, h11, _, h12, _, h13, _, h14, (), h15, rfl⟩

theorem Each.imp {α : Type} {R S : Value → α → Prop} (h : ∀ v a, R v a → S v a) {l : List Value} {as : List α} (he : Each R l as) : Each S l as := by
  induction he with
  | nil => exact .nil
  | cons h1 _ ih => exact .cons (h _ _ h1) ih

theorem Each.ex {α : Type} {R S : Value → α → Prop} (h : ∀ v a, R v a → ∃ b, S v b) {l : List Value} {as : List α} (he : Each R l as) : ∃ bs, Each S l bs := by
  induction he with
  | nil => exact ⟨_, .nil⟩
  | cons h1 _ ih =>
    obtain ⟨b, hb⟩ := h _ _ h1
    obtain ⟨bs, hbs⟩ := ih
    exact ⟨_, .cons hb hbs⟩

theorem MaybeAt.imp {α : Type} {R S : Value → α → Prop} (h : ∀ v a, R v a → S v a) {k : String} {o : Option α} (ho : MaybeAt R m k o) : MaybeAt S m k o := by
  cases o with
  | none => exact ho
  | some a => obtain ⟨v, hv, hr⟩ := ho; exact ⟨v, hv, h _ _ hr⟩

theorem MaybeAt.ex {α : Type} {R S : Value → α → Prop} (h : ∀ v a, R v a → ∃ b, S v b) {k : String} {o : Option α} (ho : MaybeAt R m k o) :
    ∃ o', MaybeAt S m k o' := by
  cases o with
  | none => exact ⟨none, ho⟩
  | some a =>
    obtain ⟨v, hv, hr⟩ := ho
    obtain ⟨b, hb⟩ := h _ _ hr
    exact ⟨some b, v, hv, hb⟩

/-- **C131** A request that `authorization_request!` makes says what is written. -/
theorem C131_authorization_request_partial {r : Wire.RequestObject} (h : authorizationRequest env m = some r) : AuthorizationSays env (IsDetail env) m r := by
  obtain ⟨h1, h2, h3, h4, h5, h6, h7, h8, h9, h10, h11, h12, h13, h14, h15⟩ := authorizationRequest_iff.1 h
  refine ⟨h1, h2, h3, h4, h5, h6, h7, h8, h9, h10, h11, h12, h13, h14.imp ?_, h15⟩
  rintro v as ⟨l, hl, he, hn⟩
  exact ⟨l, hl, he.imp fun _ _ => authorizationDetail_is, hn⟩

/-- **C131** If what is written can be said by an authorization request, then `authorization_request!` makes one. -/
theorem C131_authorization_request_made_partial {r : Wire.RequestObject} (h : AuthorizationSays env (IsDetail env) m r) :
    ∃ r', authorizationRequest env m = some r' := by
  obtain ⟨h1, h2, h3, h4, h5, h6, h7, h8, h9, h10, h11, h12, h13, h14, h15⟩ := h
  obtain ⟨o, ho⟩ := h14.ex (S := fun v as => ∃ l, v = .arr l ∧ Each (fun v d => authorizationDetail env v = some d) l as ∧ l.length ≤ 1) (by
    rintro v as ⟨l, hl, he, hn⟩
    obtain ⟨bs, hbs⟩ := he.ex (S := fun v d => authorizationDetail env v = some d) fun _ _ h => authorizationDetail_ex h
    exact ⟨bs, l, hl, hbs, hn⟩)
  exact ⟨{ r with authorizationDetails := o }, authorizationRequest_iff.2 ⟨h1, h2, h3, h4, h5, h6, h7, h8, h9, h10, h11, h12, h13, ho, h15⟩⟩

end

end Verif.Macros
