import Verif.Macros.MoreProps
import Verif.Wire.Macro
/-!
# Two translations of the macros agree (C131)

`Verif/Wire/Macro.lean` and `Verif/Macros/Model.lean` were made from the same Rust text, independently of each other. Where both know the Rust expressions of
a call, they give the same request.
-/
namespace Verif.Macros
open Verif

/-- An expression of the one model in the other. Relates two models; models no code itself. -/
def toRust : Rust → Wire.Macro.Rust
  | .owned s => .text true s
  | .borrowed s => .text false s
  | .sendType t => .send t
  | _ => .other

section
variable (env : String → Rust)

mutual

/-- A tree of the one model in the other. Relates two models; models no code itself. -/
def toValue : Value → Wire.Macro.Value
  | .bool b => .bool b
  | .num n => .number n
  | .str s => .str s
  | .arr l => .arr (toValues l)
  | .obj m => .obj (toFields m)
  | .expr e => .rust (toRust (env e))

/-- Element by element. Relates two models; models no code itself. -/
def toValues : List Value → List Wire.Macro.Value
  | [] => []
  | v :: l => toValue v :: toValues l

/-- Member by member. Relates two models; models no code itself. -/
def toFields : List (String × Value) → List (String × Wire.Macro.Value)
  | [] => []
  | (k, v) :: m => (k, toValue v) :: toFields m

end

end

/-- Expressions known to both models: texts, ways of sending, and such as fit nowhere. Specification; models no code. -/
def Known (env : String → Rust) : Prop := ∀ e, (∃ s, env e = .owned s) ∨ (∃ s, env e = .borrowed s) ∨ (∃ t, env e = .sendType t) ∨ env e = .other

section
variable {env : String → Rust} {m : Fields}

theorem get_agrees (k : String) : Wire.Macro.get (toFields env m) k = (get k m).map (toValue env) := by
  induction m with
  | nil => rfl
  | cons x m ih =>
    obtain ⟨k', v⟩ := x
    simp only [Wire.Macro.get, toFields, List.reverse_cons, List.find?_append] at ih ⊢
    simp only [get]
    cases hg : get k m with
    | some w =>
      rw [hg] at ih
      cases hf : (toFields env m).reverse.find? (fun p => p.1 = k) with
      | none => rw [hf] at ih; cases ih
      | some p => rw [hf] at ih; simpa using ih
    | none =>
      rw [hg] at ih
      cases hf : (toFields env m).reverse.find? (fun p => p.1 = k) with
      | some p => rw [hf] at ih; cases ih
      | none => by_cases hk : k' = k <;> simp [hk]

theorem consumed_agrees {ks : List String} : Wire.Macro.consumed ks (toFields env m) = true ↔ consumed ks m = some () := by
  have : Wire.Macro.consumed ks (toFields env m) = m.all fun x => ks.contains x.1 := by
    induction m with
    | nil => rfl
    | cons x m ih =>
      simp only [Wire.Macro.consumed, toFields, List.all_cons] at ih ⊢
      rw [ih]
  rw [this]
  unfold consumed
  cases m.all fun x => ks.contains x.1 <;> simp

theorem into_agrees {v : Value} : (toValue env v).into = intoString env v := by
  cases v with
  | expr e => simp only [toValue, intoString]; cases env e <;> rfl
  | _ => rfl

theorem string_agrees {v : Value} : (toValue env v).string = string env v := by
  cases v with
  | expr e => simp only [toValue, string]; cases env e <;> rfl
  | _ => rfl

theorem values_agree {α : Type} {f : Value → Option α} {g : Wire.Macro.Value → Option α} (h : ∀ v, g (toValue env v) = f v) (l : List Value) :
    (toValues env l).mapM g = l.mapM f := by
  induction l with
  | nil => rfl
  | cons v l ih => simp only [toValues, List.mapM_cons, h, ih]

theorem values_length (l : List Value) : (toValues env l).length = l.length := by
  induction l with
  | nil => rfl
  | cons v l ih => simp [toValues, ih]

theorem strings_agree (hk : Known env) {v : Value} : (toValue env v).strings = strings env v := by
  cases v with
  | arr l => exact values_agree (fun _ => string_agrees) l
  | expr e =>
    simp only [toValue, strings]
    rcases hk e with ⟨s, h⟩ | ⟨s, h⟩ | ⟨t, h⟩ | h <;> rw [h] <;> rfl
  | _ => rfl

theorem expect_agrees {k : String} : Wire.Macro.expect (toFields env m) k = required env k m := by
  simp only [Wire.Macro.expect, required, get_agrees]
  cases get k m with
  | none => rfl
  | some v => exact into_agrees

theorem option_agrees {k : String} : Wire.Macro.option (toFields env m) k = optional env k m := by
  simp only [Wire.Macro.option, optional, get_agrees]
  cases get k m with
  | none => rfl
  | some v => simp only [Option.map_some, into_agrees]

theorem juxtaposed_agrees {α β : Type} {f : β → Option α} {l : List β} : (if l.length ≤ 1 then l.mapM f else none) = (l.mapM f).bind juxtaposed := by
  match l with
  | [] => rfl
  | [a] => cases h : f a <;> simp [h, juxtaposed]
  | a :: b :: l =>
    rw [if_neg (by simp)]
    cases h : (a :: b :: l).mapM f with
    | none => rfl
    | some r =>
      simp only [List.mapM_cons, Option.bind_eq_bind, Option.bind_eq_some_iff, Option.pure_def, Option.some.injEq] at h
      obtain ⟨x, _, _, ⟨y, _, z, _, rfl⟩, rfl⟩ := h
      rfl

theorem grant_agrees {v : Value} : ((toValue env v).literal.bind Wire.grantOf) = grantType v := by
  cases v with
  | str s =>
    simp only [toValue, Wire.Macro.Value.literal, Option.bind_some, Wire.grantOf, grantType]
    by_cases h1 : s = "authorization_code"
    · subst h1; rfl
    · rw [if_neg h1, if_neg h1]
  | _ => rfl

theorem grants_agree : Wire.Macro.grantTypes (toFields env m) = grantTypes (get "grant_types" m) := by
  simp only [Wire.Macro.grantTypes, get_agrees]
  cases get "grant_types" m with
  | none => rfl
  | some v =>
    cases v with
    | arr l =>
      simp only [Option.map_some, toValue, grantTypes]
      rw [values_length, values_agree (fun v => grant_agrees) l, ← juxtaposed_agrees]
      split <;> rfl
    | _ => rfl

theorem txCode_agrees (hk : Known env) : Wire.Macro.txCodeRequired (toFields env m) = txCode env (get "tx_code_required" m) := by
  simp only [Wire.Macro.txCodeRequired, get_agrees]
  cases get "tx_code_required" m with
  | none => rfl
  | some v =>
    cases v with
    | expr e =>
      simp only [Option.map_some, toValue, txCode, boolean]
      rcases hk e with ⟨s, h⟩ | ⟨s, h⟩ | ⟨t, h⟩ | h <;> rw [h]
    | _ => rfl

theorem sendType_agrees : Wire.Macro.sendType (toFields env m) = sendType env (get "send_type" m) := by
  simp only [Wire.Macro.sendType, get_agrees]
  cases get "send_type" m with
  | none => rfl
  | some v =>
    cases v with
    | expr e =>
      simp only [Option.map_some, toValue, sendType]
      cases env e <;> rfl
    | _ => rfl

theorem configurationIds_agree (hk : Known env) {ids : List String} : configurationIds env (get "credential_configuration_ids" m) = some ids ↔
    ∃ v, Wire.Macro.get (toFields env m) "credential_configuration_ids" = some v ∧ v.strings = some ids ∧ ids ≠ [] := by
  rw [get_agrees]
  cases get "credential_configuration_ids" m with
  | none => simp [configurationIds]
  | some v =>
    simp only [Option.map_some, Option.some.injEq, exists_eq_left', strings_agree hk]
    cases v with
    | arr l =>
      cases l with
      | nil =>
        simp only [configurationIds, strings, List.isEmpty_nil, if_true, reduceCtorEq, false_iff]
        rintro ⟨h, hn⟩; cases h; exact hn rfl
      | cons x l =>
        simp only [configurationIds, strings, List.isEmpty_cons, Bool.false_eq_true, if_false]
        constructor
        · intro h
          refine ⟨h, ?_⟩
          simp only [List.mapM_cons, Option.bind_eq_bind, Option.bind_eq_some_iff, Option.pure_def, Option.some.injEq] at h
          obtain ⟨_, _, _, _, rfl⟩ := h
          simp
        · exact fun h => h.1
    | expr e =>
      simp only [configurationIds, strings, reduceCtorEq, false_iff]
      rcases hk e with ⟨s, h⟩ | ⟨s, h⟩ | ⟨t, h⟩ | h <;> rw [h] <;> simp
    | _ => simp [configurationIds, strings]

/-- **C131** Both translations of `create_offer_request!` give the same. -/
theorem C131_offers_agree (hk : Known env) : Wire.Macro.createOfferRequest (toFields env m) = createOffer env m := by
  refine Option.ext fun r => ?_
  simp only [createOffer, Wire.Macro.createOfferRequest, Option.bind_eq_bind, Option.bind_eq_some_iff, Option.pure_def, expect_agrees, option_agrees, grants_agree,
    txCode_agrees hk, sendType_agrees, configurationIds_agree hk]
  constructor
  · rintro ⟨a, ha, b, hb, v, hv, ids, hi, g, hg, t, ht, k, hs, h⟩
    split at h
    · rename_i hc
      exact ⟨a, ha, b, hb, ids, ⟨v, hv, hi, hc.1⟩, g, hg, t, ht, k, hs, (), consumed_agrees.1 hc.2, h⟩
    · cases h
  · rintro ⟨a, ha, b, hb, ids, ⟨v, hv, hi, hn⟩, g, hg, t, ht, k, hs, _, hc, h⟩
    refine ⟨a, ha, b, hb, v, hv, ids, hi, g, hg, t, ht, k, hs, ?_⟩
    rw [if_pos ⟨hn, consumed_agrees.2 hc⟩]
    exact h

theorem tokenSubject_agrees : Wire.Macro.tokenSubject (toFields env m) = tokenSubject (get "credentialSubject" m) := by
  simp only [Wire.Macro.tokenSubject, get_agrees]
  cases get "credentialSubject" m with
  | none => rfl
  | some v =>
    cases v with
    | obj n => cases n <;> rfl
    | _ => rfl

theorem tokenDefinition_agrees (hk : Known env) {v : Value} : Wire.Macro.tokenDefinition (toValue env v) = tokenDefinition env v := by
  cases v with
  | obj n =>
    simp only [toValue, Wire.Macro.tokenDefinition, tokenDefinition, get_agrees, tokenSubject_agrees]
    cases get "type" n with
    | none => rfl
    | some w => simp only [Option.map_some, Option.bind_eq_bind, Option.bind_some, strings_agree hk]; rfl
  | _ => rfl

theorem plainJwt_agrees {v : Value} : isJwtVcJson (some v) = if Wire.Macro.plainJwt (toValue env v) then some () else none := by
  cases v with
  | str s => simp only [isJwtVcJson, toValue, Wire.Macro.plainJwt, decide_eq_true_eq]
  | _ => rfl

theorem tokenConfiguration_agrees (hk : Known env) : Wire.Macro.tokenCredential (toFields env m) = tokenConfiguration env m := by
  simp only [Wire.Macro.tokenCredential, tokenConfiguration, get_agrees]
  cases get "credential_configuration_id" m with
  | some v =>
    simp only [Option.map_some]
    cases get "credential_definition" m with
    | none => simp only [Option.map_none, string_agrees]; cases string env v <;> rfl
    | some w => simp only [Option.map_some]; cases string env v <;> rfl
  | none =>
    simp only [Option.map_none]
    cases get "format" m with
    | none => rfl
    | some f =>
      cases get "credential_definition" m with
      | none => simp only [Option.map_some, Option.map_none]; cases isJwtVcJson (some f) <;> rfl
      | some w =>
        simp only [Option.map_some, plainJwt_agrees (env := env), tokenDefinition_agrees hk]
        split
        · simp only [Option.bind_eq_bind, Option.bind_some]; cases tokenDefinition env w <;> rfl
        · rfl

theorem typed_agrees : typed (get "type" m) = if Wire.Macro.typed (toFields env m) then some () else none := by
  simp only [Wire.Macro.typed, get_agrees]
  cases get "type" m with
  | none => rfl
  | some v =>
    cases v with
    | str s => simp only [typed, Option.map_some, toValue, decide_eq_true_eq]
    | _ => rfl

theorem tokenDetail_agrees (hk : Known env) {v : Value} : Wire.Macro.detail Wire.Macro.tokenCredential (toValue env v) = tokenDetail env v := by
  cases v with
  | obj n =>
    simp only [toValue, Wire.Macro.detail, tokenDetail, typed_agrees (env := env), tokenConfiguration_agrees hk]
    split
    · simp only [Option.bind_eq_bind, Option.bind_some]; cases tokenConfiguration env n <;> rfl
    · rfl
  | _ => rfl

theorem tokenDetails_agree (hk : Known env) :
    Wire.Macro.optDetails Wire.Macro.tokenCredential (toFields env m) = tokenDetails env (get "authorization_details" m) := by
  simp only [Wire.Macro.optDetails, get_agrees]
  cases get "authorization_details" m with
  | none => rfl
  | some v =>
    cases v with
    | arr l =>
      simp only [Option.map_some, toValue, Wire.Macro.details, tokenDetails]
      rw [values_length, values_agree (fun v => tokenDetail_agrees hk) l, ← juxtaposed_agrees]
    | _ => rfl

/-- **C131** Both translations of `token_request!` give the same. -/
theorem C131_tokens_agree (hk : Known env) : Wire.Macro.tokenRequest (toFields env m) = tokenRequest env m := by
  refine Option.ext fun r => ?_
  simp only [tokenRequest, Wire.Macro.tokenRequest, Option.bind_eq_bind, Option.bind_eq_some_iff, Option.pure_def, expect_agrees, option_agrees, tokenDetails_agree hk,
    get_agrees, tokenGrant]
  constructor
  · rintro ⟨a, ha, b, hb, v, hv, s, hs, d, hd, h⟩
    obtain ⟨v, hg, rfl⟩ := Option.map_eq_some_iff.1 hv
    cases v with
    | str t =>
      cases hs
      refine ⟨a, ha, b, hb, ?_⟩
      simp only [hg]
      by_cases h1 : s = "urn:ietf:params:oauth:grant-type:pre-authorized_code"
      · rw [if_pos h1] at h
        rw [if_pos h1]
        simp only [Option.bind_eq_some_iff] at h
        obtain ⟨c, hc, t, ht, h⟩ := h
        split at h
        · rename_i hcon
          exact ⟨(.preAuthorizedCode c t, ["pre-authorized_code", "tx_code"]), by rw [hc]; simp only [Option.bind_some]; rw [ht]; rfl, d, hd, (), consumed_agrees.1 hcon, h⟩
        · cases h
      · rw [if_neg h1] at h
        rw [if_neg h1]
        by_cases h2 : s = "authorization_code"
        · rw [if_pos h2] at h
          rw [if_pos h2]
          simp only [Option.bind_eq_some_iff] at h
          obtain ⟨c, hc, u, hu, w, hw, h⟩ := h
          split at h
          · rename_i hcon
            exact ⟨(.authorizationCode c u (some w), ["code", "redirect_uri", "code_verifier"]), by rw [hc]; simp only [Option.bind_some]; rw [hu]; simp only [Option.bind_some]; rw [hw]; rfl, d, hd, (), consumed_agrees.1 hcon, h⟩
          · cases h
        · rw [if_neg h2] at h; cases h
    | _ => cases hs
  · rintro ⟨a, ha, b, hb, g, hg, d, hd, _, hcon, h⟩
    refine ⟨a, ha, b, hb, ?_⟩
    split at hg
    · rename_i s hgt
      refine ⟨_, by rw [hgt]; rfl, s, rfl, d, hd, ?_⟩
      by_cases h1 : s = "urn:ietf:params:oauth:grant-type:pre-authorized_code"
      · rw [if_pos h1] at hg
        rw [if_pos h1]
        simp only [Option.bind_eq_some_iff, Option.some.injEq] at hg
        obtain ⟨c, hc, t, ht, rfl⟩ := hg
        have hcon : consumed ["credential_issuer", "client_id", "grant_type", "authorization_details", "pre-authorized_code", "tx_code"] m = some () := hcon
        rw [hc, Option.bind_some, ht, Option.bind_some, if_pos (consumed_agrees.2 hcon)]
        exact h
      · rw [if_neg h1] at hg
        rw [if_neg h1]
        by_cases h2 : s = "authorization_code"
        · rw [if_pos h2] at hg
          rw [if_pos h2]
          simp only [Option.bind_eq_some_iff, Option.some.injEq] at hg
          obtain ⟨c, hc, u, hu, w, hw, rfl⟩ := hg
          have hcon : consumed ["credential_issuer", "client_id", "grant_type", "authorization_details", "code", "redirect_uri", "code_verifier"] m = some () := hcon
          rw [hc, Option.bind_some, hu, Option.bind_some, hw, Option.bind_some, if_pos (consumed_agrees.2 hcon)]
          exact h
        · rw [if_neg h2] at hg; cases hg
    · cases hg

end

/-! ### `authorization_request!` -/

mutual

/-- In no object is a name written twice. Specification; models no code. -/
def Tidy : Value → Prop
  | .arr l => TidyList l
  | .obj m => (m.map Prod.fst).Nodup ∧ TidyFields m
  | _ => True

/-- Element by element. Specification; models no code. -/
def TidyList : List Value → Prop
  | [] => True
  | v :: l => Tidy v ∧ TidyList l

/-- Member by member. Specification; models no code. -/
def TidyFields : List (String × Value) → Prop
  | [] => True
  | (_, v) :: m => Tidy v ∧ TidyFields m

end

section
variable {env : String → Rust} {m : Fields}

theorem TidyFields.mem {k : String} {v : Value} : {m : Fields} → TidyFields m → (k, v) ∈ m → Tidy v
  | [], _, h => by cases h
  | (_, _) :: m, ht, h => by
    rcases List.mem_cons.1 h with h | h
    · cases h; exact ht.1
    · exact TidyFields.mem ht.2 h

theorem TidyFields.get {k : String} {v : Value} (h : TidyFields m) (hg : get k m = some v) : Tidy v := h.mem (get_some.1 hg).mem

theorem TidyList.mem {v : Value} : {l : List Value} → TidyList l → v ∈ l → Tidy v
  | [], _, h => by cases h
  | _ :: l, ht, h => by
    rcases List.mem_cons.1 h with h | h
    · cases h; exact ht.1
    · exact TidyList.mem ht.2 h

theorem insert_new {α : Type} {acc : Dict α} {k : String} {a : α} (h : k ∉ acc.map Prod.fst) : Dict.insert acc k a = acc ++ [(k, a)] := by
  induction acc with
  | nil => rfl
  | cons x acc ih =>
    obtain ⟨k', b⟩ := x
    simp only [List.map_cons, List.mem_cons, not_or] at h
    simp only [Dict.insert]
    rw [if_neg (Ne.symm h.1), ih h.2]
    rfl

theorem claims_new {m : Fields} {acc : Dict Wire.Claim} (h : (acc.map Prod.fst ++ m.map Prod.fst).Nodup) :
    claims m acc = acc ++ m.map fun x => (x.1, claim x.2) := by
  induction m generalizing acc with
  | nil => simp [claims]
  | cons x m ih =>
    obtain ⟨k, v⟩ := x
    have hk : k ∉ acc.map Prod.fst := by
      intro hk
      rw [List.nodup_append] at h
      exact h.2.2 k hk k (by simp) rfl
    simp only [claims]
    rw [insert_new hk, ih (by simpa [List.append_assoc] using h)]
    simp

mutual

theorem claim_agrees : (v : Value) → Tidy v → Wire.Macro.claim (toValue env v) = claim v
  | .obj [], _ => by simp only [toValue, toFields, claim, Wire.Macro.claim]
  | .obj (x :: m), ht => by
    have h := claims_agree (x :: m) ht.1 ht.2
    obtain ⟨k, v⟩ := x
    simp only [toValue, toFields, claim, Wire.Macro.claim] at h ⊢
    rw [h, claims_new (acc := []) (by simpa using ht.1)]
    rfl
  | .bool _, _ => by simp only [toValue, claim, Wire.Macro.claim]
  | .num _, _ => by simp only [toValue, claim, Wire.Macro.claim]
  | .str _, _ => by simp only [toValue, claim, Wire.Macro.claim]
  | .arr _, _ => by simp only [toValue, claim, Wire.Macro.claim]
  | .expr _, _ => by simp only [toValue, claim, Wire.Macro.claim]

theorem claims_agree : (m : List (String × Value)) → (m.map Prod.fst).Nodup → TidyFields m →
    Wire.Macro.claims (toFields env m) = m.map fun x => (x.1, claim x.2)
  | [], _, _ => by simp only [toFields, Wire.Macro.claims, List.map_nil]
  | (k, v) :: m, hn, ht => by
    have hn' : k ∉ m.map Prod.fst ∧ (m.map Prod.fst).Nodup := by simpa using hn
    have hk : (toFields env m).any (fun p => p.1 = k) = false := by
      have : ∀ n : Fields, k ∉ n.map Prod.fst → (toFields env n).any (fun p => p.1 = k) = false := by
        intro n
        induction n with
        | nil => intro _; rfl
        | cons x n ih =>
          obtain ⟨k', w⟩ := x
          intro h
          simp only [List.map_cons, List.mem_cons, not_or] at h
          simp only [toFields, List.any_cons, ih h.2, Bool.or_false, decide_eq_false_iff_not]
          exact Ne.symm h.1
      exact this m hn'.1
    simp only [toFields, Wire.Macro.claims, hk, Bool.false_eq_true, if_false, List.map_cons]
    rw [claim_agrees v ht.1, claims_agree m hn'.2 ht.2]

end

theorem subject_agrees (ht : TidyFields m) : Wire.Macro.subject (toFields env m) = subject (get "credentialSubject" m) := by
  simp only [Wire.Macro.subject, get_agrees]
  cases hg : get "credentialSubject" m with
  | none => rfl
  | some v =>
    cases v with
    | obj n =>
      have h := ht.get hg
      simp only [Option.map_some, toValue, subject]
      rw [claims_agree n h.1 h.2, claims_new (acc := []) (by simpa using h.1)]
      rfl
    | _ => rfl

theorem types_agree (hk : Known env) : Wire.Macro.types (toFields env m) = optionalTypes env (get "type" m) := by
  simp only [Wire.Macro.types, get_agrees]
  cases get "type" m with
  | none => rfl
  | some v => simp only [Option.map_some, strings_agree hk, optionalTypes]

theorem configurationDefinition_agrees (hk : Known env) {v : Value} (ht : Tidy v) :
    Wire.Macro.configurationDefinition (toValue env v) = configurationDefinition env v := by
  cases v with
  | obj n =>
    simp only [toValue, Wire.Macro.configurationDefinition, configurationDefinition, types_agree hk, subject_agrees ht.2]
    rfl
  | _ => rfl

theorem formatDefinition_agrees (hk : Known env) {v : Value} (ht : Tidy v) : Wire.Macro.formatDefinition (toValue env v) = formatDefinition env v := by
  cases v with
  | obj n =>
    simp only [toValue, Wire.Macro.formatDefinition, formatDefinition, get_agrees, subject_agrees ht.2]
    cases get "type" n with
    | none => rfl
    | some w => simp only [Option.map_some, Option.bind_eq_bind, Option.bind_some, strings_agree hk]; rfl
  | _ => rfl

theorem credentialAuthorization_agrees (hk : Known env) (ht : TidyFields m) :
    Wire.Macro.credentialAuthorization (toFields env m) = credentialAuthorization env m := by
  simp only [Wire.Macro.credentialAuthorization, credentialAuthorization, get_agrees]
  cases get "credential_configuration_id" m with
  | some v =>
    simp only [Option.map_some, string_agrees]
    cases string env v with
    | none => rfl
    | some id =>
      simp only [Option.bind_eq_bind, Option.bind_some]
      cases hd : get "credential_definition" m with
      | none => rfl
      | some w =>
        simp only [Option.map_some, configurationClaims, configurationDefinition_agrees hk (ht.get hd)]
        cases configurationDefinition env w <;> rfl
  | none =>
    simp only [Option.map_none]
    cases get "format" m with
    | none => rfl
    | some f =>
      cases hd : get "credential_definition" m with
      | none => simp only [Option.map_some, Option.map_none]; cases isJwtVcJson (some f) <;> rfl
      | some w =>
        simp only [Option.map_some, plainJwt_agrees (env := env), formatDefinition_agrees hk (ht.get hd)]
        split
        · simp only [Option.bind_eq_bind, Option.bind_some]; cases formatDefinition env w <;> rfl
        · rfl

theorem authorizationDetail_agrees (hk : Known env) {v : Value} (ht : Tidy v) :
    Wire.Macro.detail Wire.Macro.credentialAuthorization (toValue env v) = authorizationDetail env v := by
  cases v with
  | obj n =>
    simp only [toValue, Wire.Macro.detail, authorizationDetail, typed_agrees (env := env), credentialAuthorization_agrees hk ht.2]
    split
    · simp only [Option.bind_eq_bind, Option.bind_some]; cases credentialAuthorization env n <;> rfl
    · rfl
  | _ => rfl

theorem values_agree_mem {α : Type} {f : Value → Option α} {g : Wire.Macro.Value → Option α} {l : List Value} (h : ∀ v ∈ l, g (toValue env v) = f v) :
    (toValues env l).mapM g = l.mapM f := by
  induction l with
  | nil => rfl
  | cons v l ih =>
    simp only [toValues, List.mapM_cons, h v (by simp)]
    rw [ih fun w hw => h w (List.mem_cons_of_mem _ hw)]

theorem authorizationDetails_agree (hk : Known env) (ht : TidyFields m) :
    Wire.Macro.optDetails Wire.Macro.credentialAuthorization (toFields env m) = authorizationDetails env (get "authorization_details" m) := by
  simp only [Wire.Macro.optDetails, get_agrees]
  cases hg : get "authorization_details" m with
  | none => rfl
  | some v =>
    cases v with
    | arr l =>
      have hl : TidyList l := ht.get hg
      simp only [Option.map_some, toValue, Wire.Macro.details, authorizationDetails]
      rw [values_length, values_agree_mem (f := authorizationDetail env) (fun v hv => authorizationDetail_agrees hk (hl.mem hv)), ← juxtaposed_agrees]
    | _ => rfl

theorem responseType_agrees (hk : Known env) : (required env "response_type" m).map Wire.Macro.responseFrom = responseType env (get "response_type" m) := by
  unfold required
  cases get "response_type" m with
  | none => rfl
  | some v =>
    cases v with
    | expr e =>
      simp only [Option.bind_some, intoString, responseType]
      rcases hk e with ⟨s, h⟩ | ⟨s, h⟩ | ⟨t, h⟩ | h <;> rw [h] <;> rfl
    | _ => rfl

theorem challengeMethod_agrees (hk : Known env) : (required env "code_challenge_method" m).map (fun _ => ()) = challengeMethod env (get "code_challenge_method" m) := by
  unfold required
  cases get "code_challenge_method" m with
  | none => rfl
  | some v =>
    cases v with
    | expr e =>
      simp only [Option.bind_some, intoString, challengeMethod]
      rcases hk e with ⟨s, h⟩ | ⟨s, h⟩ | ⟨t, h⟩ | h <;> rw [h] <;> rfl
    | _ => rfl

/-- The two models list the same names. -/
theorem names_agree : Wire.Macro.consumed Wire.objectNames (toFields env m) = true ↔ consumed ["credential_issuer", "response_type", "client_id", "code_challenge",
    "code_challenge_method", "subject_id", "redirect_uri", "state", "scope", "resource", "wallet_issuer", "user_hint", "issuer_state", "authorization_details"] m = some () := by
  rw [consumed_agrees, consumed_iff, consumed_iff]
  have h : ∀ k, k ∈ Wire.objectNames ↔ k ∈ ["credential_issuer", "response_type", "client_id", "code_challenge", "code_challenge_method", "subject_id", "redirect_uri",
      "state", "scope", "resource", "wallet_issuer", "user_hint", "issuer_state", "authorization_details"] := by
    intro k
    simp only [Wire.objectNames, List.mem_cons, List.not_mem_nil, or_false]
    constructor <;> (intro h; rcases h with h | h | h | h | h | h | h | h | h | h | h | h | h | h <;> simp [h])
  exact ⟨fun ho x hx => (h _).1 (ho x hx), fun ho x hx => (h _).2 (ho x hx)⟩

/-- **C131** Both translations of `authorization_request!` give the same. -/
theorem C131_authorizations_agree (hk : Known env) (ht : TidyFields m) : Wire.Macro.authorizationRequest (toFields env m) = authorizationRequest env m := by
  refine Option.ext fun r => ?_
  simp only [authorizationRequest, Wire.Macro.authorizationRequest, Option.bind_eq_bind, Option.bind_eq_some_iff, Option.pure_def, expect_agrees, option_agrees,
    authorizationDetails_agree hk ht, ← responseType_agrees hk, ← challengeMethod_agrees hk, Option.map_eq_some_iff]
  constructor
  · rintro ⟨_, h1, _, h2, _, h3, _, h4, _, h5, _, h6, _, h7, _, h8, _, h9, _, h10, _, h11, _, h12, _, h13, _, h14, h⟩
    split at h
    · rename_i hc
      exact ⟨_, h1, _, ⟨_, h2, rfl⟩, _, h3, _, h4, (), ⟨_, h5, trivial⟩, _, h6, _, h7, _, h8, _, h9, _, h10, _, h11, _, h12, _, h13, _, h14, (), names_agree.1 hc, h⟩
    · cases h
  · rintro ⟨_, h1, _, ⟨_, h2, rfl⟩, _, h3, _, h4, _, ⟨_, h5, _⟩, _, h6, _, h7, _, h8, _, h9, _, h10, _, h11, _, h12, _, h13, _, h14, _, hc, h⟩
    refine ⟨_, h1, _, h2, _, h3, _, h4, _, h5, _, h6, _, h7, _, h8, _, h9, _, h10, _, h11, _, h12, _, h13, _, h14, ?_⟩
    rw [if_pos (names_agree.2 hc)]
    exact h

end

/-! ### `credential_request!` -/

/-- A credential request of the one model in the other, which keeps no more of it. Relates two models; models no code itself. -/
inductive SameRequest : CredentialRequest → Issuer.CredentialRequest → Prop
  | identifier {i t s : String} {p : Option String} :
      SameRequest { credentialIssuer := i, accessToken := t, credential := .identifier s, proof := p, encryption := none }
        { credentialIssuer := i, accessToken := t, credential := .identifier s, proof := p.map .single }
  | format {i t : String} {ts : List String} {p : Option String} :
      SameRequest
        { credentialIssuer := i, accessToken := t, credential := .format (.jwtVcJson { context := none, type_ := some ts, credentialSubject := none }), proof := p, encryption := none }
        { credentialIssuer := i, accessToken := t, credential := .format (.jwtVcJson { type_ := some ts }), proof := p.map .single }

section
variable {env : String → Rust} {m : Fields}

theorem proof_agrees : Wire.Macro.proof (toFields env m) = (proof env (get "proof" m)).map (Option.map Issuer.Proof.single) := by
  simp only [Wire.Macro.proof, get_agrees]
  cases get "proof" m with
  | none => rfl
  | some v =>
    cases v with
    | obj n =>
      simp only [Option.map_some, toValue, proof, get_agrees, required]
      cases get "proof_type" n with
      | none => rfl
      | some t =>
        cases t with
        | str s =>
          simp only [Option.map_some, toValue]
          by_cases hs : s = "jwt"
          · subst hs
            cases get "jwt" n with
            | none => rfl
            | some j =>
              simp only [Option.map_some, into_agrees, if_true, Option.bind_some]
              cases intoString env j <;> rfl
          · rw [if_neg hs]
            cases get "jwt" n <;> simp [hs]
        | _ => simp only [Option.map_some, toValue]; cases get "jwt" n <;> rfl
    | _ => rfl

theorem encryption_agrees (hk : Known env) {o : Option String} :
    encryption env (get "credential_response_encryption" m) = some o ↔ Wire.Macro.get (toFields env m) "credential_response_encryption" = none ∧ o = none := by
  rw [get_agrees]
  cases get "credential_response_encryption" m with
  | none => simp [encryption, eq_comm]
  | some v =>
    simp only [Option.map_some, reduceCtorEq, false_and, iff_false]
    cases v with
    | expr e =>
      simp only [encryption]
      rcases hk e with ⟨s, h⟩ | ⟨s, h⟩ | ⟨t, h⟩ | h <;> rw [h] <;> simp
    | _ => simp [encryption]

/-- The names of members in both models; where a format is given, the one lists an absent name more. -/
theorem credential_names (hg : get "credential_identifier" m = none) :
    Wire.Macro.consumed (["credential_issuer", "access_token", "proof"] ++ ["format", "credential_definition"]) (toFields env m) = true ∧
      Wire.Macro.get (toFields env m) "credential_response_encryption" = none ↔
    consumed (["credential_issuer", "access_token", "proof", "credential_response_encryption"] ++ ["credential_identifier", "format", "credential_definition"]) m = some () ∧
      Wire.Macro.get (toFields env m) "credential_response_encryption" = none := by
  rw [consumed_agrees, consumed_iff, consumed_iff]
  refine and_congr_left fun he => ⟨fun h x hx => ?_, fun h x hx => ?_⟩
  · have := h x hx
    simp only [List.cons_append, List.nil_append, List.mem_cons, List.not_mem_nil, or_false] at this ⊢
    rcases this with h | h | h | h | h <;> simp [h]
  · have := h x hx
    simp only [List.cons_append, List.nil_append, List.mem_cons, List.not_mem_nil, or_false] at this ⊢
    rw [get_agrees] at he
    rcases this with h | h | h | h | h | h | h
    · simp [h]
    · simp [h]
    · simp [h]
    · exact absurd (show ("credential_response_encryption", x.2) ∈ m by rw [← h]; exact hx) (get_none.1 (by simpa using he) _)
    · exact absurd (show ("credential_identifier", x.2) ∈ m by rw [← h]; exact hx) (get_none.1 hg _)
    · simp [h]
    · simp [h]

theorem identifier_names :
    Wire.Macro.consumed (["credential_issuer", "access_token", "proof"] ++ ["credential_identifier"]) (toFields env m) = true ∧
      Wire.Macro.get (toFields env m) "credential_response_encryption" = none ↔
    consumed (["credential_issuer", "access_token", "proof", "credential_response_encryption"] ++ ["credential_identifier"]) m = some () ∧
      Wire.Macro.get (toFields env m) "credential_response_encryption" = none := by
  rw [consumed_agrees, consumed_iff, consumed_iff]
  refine and_congr_left fun he => ⟨fun h x hx => ?_, fun h x hx => ?_⟩
  · have := h x hx
    simp only [List.cons_append, List.nil_append, List.mem_cons, List.not_mem_nil, or_false] at this ⊢
    rcases this with h | h | h | h <;> simp [h]
  · have := h x hx
    simp only [List.cons_append, List.nil_append, List.mem_cons, List.not_mem_nil, or_false] at this ⊢
    rw [get_agrees] at he
    rcases this with h | h | h | h | h
    · simp [h]
    · simp [h]
    · simp [h]
    · exact absurd (show ("credential_response_encryption", x.2) ∈ m by rw [← h]; exact hx) (get_none.1 (by simpa using he) _)
    · simp [h]

/-- **C131** Both translations of `credential_request!` give the same. -/
theorem C131_credentials_agree (hk : Known env) :
    (∀ r, credentialRequest env m = some r → ∃ r', Wire.Macro.credentialRequest (toFields env m) = some r' ∧ SameRequest r r') ∧
      ∀ r', Wire.Macro.credentialRequest (toFields env m) = some r' → ∃ r, credentialRequest env m = some r ∧ SameRequest r r' := by
  constructor
  · intro r h
    simp only [credentialRequest, Option.bind_eq_bind, Option.bind_eq_some_iff, Option.pure_def, Option.some.injEq] at h
    obtain ⟨i, hi, t, ht, ⟨a, ks⟩, ha, p, hp, x, hx, _, hc, rfl⟩ := h
    obtain ⟨hy, rfl⟩ := (encryption_agrees hk).1 hx
    have hp' : Wire.Macro.proof (toFields env m) = some (p.map .single) := by rw [proof_agrees, hp]; rfl
    have ha' := credentialIssuance_iff.1 ha
    cases ha' with
    | identifier h =>
      obtain ⟨v, hv, hs⟩ := h
      refine ⟨_, ?_, .identifier⟩
      have hg := get_agrees (env := env) (m := m) "credential_identifier"
      rw [get_some.2 hv] at hg
      simp only [Wire.Macro.credentialRequest, expect_agrees, hi, ht, Option.bind_eq_bind, Option.bind_some, Wire.Macro.issuance, hg, Option.map_some, into_agrees,
        intoString_iff.2 hs, hp', hy]
      rw [if_pos (identifier_names.2 ⟨hc, hy⟩).1]
    | format hi' hf hn hw hts =>
      refine ⟨_, ?_, .format⟩
      have hg := get_agrees (env := env) (m := m) "credential_identifier"
      have hg1 := get_agrees (env := env) (m := m) "format"
      have hg2 := get_agrees (env := env) (m := m) "credential_definition"
      rw [get_none.2 hi'] at hg
      rw [get_some.2 hf] at hg1
      rw [get_some.2 hn] at hg2
      simp only [Wire.Macro.credentialRequest, expect_agrees, hi, ht, Option.bind_eq_bind, Option.bind_some, Wire.Macro.issuance, hg, hg1, hg2, Option.map_none, Option.map_some,
        toValue, Wire.Macro.plainJwt, decide_true, if_true, Wire.Macro.issuanceDefinition, get_agrees, get_some.2 hw, strings_agree hk, strings_iff.2 hts, hp']
      rw [get_agrees] at hy
      simp only [hy]
      rw [if_pos ((credential_names (get_none.2 hi')).2 ⟨hc, by rw [get_agrees]; exact hy⟩).1]
  · intro r' h
    simp only [Wire.Macro.credentialRequest, expect_agrees, Option.bind_eq_bind, Option.bind_eq_some_iff] at h
    obtain ⟨i, hi, t, ht, ⟨c, names⟩, ha, p, hp, h⟩ := h
    rw [proof_agrees] at hp
    obtain ⟨q, hq, rfl⟩ := Option.map_eq_some_iff.1 hp
    cases hx : Wire.Macro.get (toFields env m) "credential_response_encryption" with
    | some _ => rw [hx] at h; cases h
    | none =>
      rw [hx] at h
      have hcon : Wire.Macro.consumed (["credential_issuer", "access_token", "proof"] ++ names) (toFields env m) = true := by
        by_cases hc : Wire.Macro.consumed (["credential_issuer", "access_token", "proof"] ++ names) (toFields env m) = true
        · exact hc
        · simp only at h; rw [if_neg hc] at h; cases h
      simp only at h
      rw [if_pos hcon] at h
      cases h
      have he := (encryption_agrees hk (o := none)).2 ⟨hx, rfl⟩
      simp only [Wire.Macro.issuance, get_agrees] at ha
      cases hg : get "credential_identifier" m with
      | some v =>
        rw [hg] at ha
        simp only [Option.map_some, into_agrees, Option.map_eq_some_iff, Prod.mk.injEq] at ha
        obtain ⟨s, hs, rfl, rfl⟩ := ha
        have hc := (identifier_names.1 ⟨hcon, hx⟩).1
        refine ⟨_, ?_, .identifier⟩
        simp only [credentialRequest, hi, ht, Option.bind_eq_bind, Option.bind_some, credentialIssuance, hg, hs, Option.pure_def, hq, he, hc]
      | none =>
        rw [hg] at ha
        cases hf : get "format" m with
        | none => rw [hf] at ha; cases ha
        | some f =>
          cases hd : get "credential_definition" m with
          | none => rw [hf, hd] at ha; cases ha
          | some d =>
            rw [hf, hd] at ha
            simp only [Option.map_none, Option.map_some] at ha
            split at ha
            · rename_i hj
              have hj' : isJwtVcJson (some f) = some () := by rw [plainJwt_agrees (env := env), if_pos hj]
              cases d with
              | obj n =>
                simp only [toValue, Wire.Macro.issuanceDefinition, get_agrees, Option.map_eq_some_iff, Option.bind_eq_some_iff, Prod.mk.injEq] at ha
                obtain ⟨ts, ⟨w, ⟨w', hw, rfl⟩, hts⟩, rfl, rfl⟩ := ha
                rw [strings_agree hk] at hts
                have hc := ((credential_names hg).1 ⟨hcon, hx⟩).1
                refine ⟨_, ?_, .format⟩
                simp only [credentialRequest, hi, ht, Option.bind_eq_bind, Option.bind_some, credentialIssuance, hg, hf, hj', hd, credentialDefinition, hw, hts, Option.pure_def,
                  hq, he, hc]
              | _ => simp [toValue, Wire.Macro.issuanceDefinition] at ha
            · cases ha

end

end Verif.Macros
